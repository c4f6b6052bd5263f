import Verif.Props.Vtk
import Verif.Props.Csv
import Verif.Props.CsvMulti
import Verif.Props.CsvMultiVel
import Verif.Props.CsvSteps
import Verif.Props.Session
import Verif.Props.EndToEnd
import Verif.Props.EndToEndCsv
import Verif.Props.Writes
import Verif.Props.WritesUse

/-!
# Cases for the theorems on conversions and sessions

Concrete cases that meet the hypotheses of theorems of `Props/{Vtk,Csv,CsvMulti,CsvMultiVel,Session,EndToEnd,EndToEndCsv,Writes,WritesUse}.lean`.
-/

namespace Up4

open F

/-! ### Two VTK files -/

/-- Case for `C62_times`: the two files of the steps 0 and 1: two timesteps, at the times 0 and 1, and the greatest particle number is 2. -/
example : ∃ out, vtkConvert fullOpts (fin 1) (goFiles.map fun f => vtkOf f.1 f.2) = .ok out ∧ out.attrs.n = 2 ∧ out.attrs.timeArray = [fin 0, fin 1] ∧ 2 ≤ out.attrs.np := by
  obtain ⟨out, h⟩ := goFiles_converted
  obtain ⟨_, h2⟩ := C62_times fullOpts fullOpts_full (fin 1 : F ℝ) goFiles (by simp [goFiles]) (by simp [goFiles])
  obtain ⟨k1, k2, _, _, _, k6, _⟩ := h2 out h
  refine ⟨out, h, k1, ?_, ?_⟩
  · rw [k2]
    unfold fileTimes goFiles
    simp only [List.map_cons, List.map_nil, goFiles_time]
    norm_num
  · exact k6 _ (by unfold goFiles; exact List.mem_cons_self) (goRec 2 5 1) (by simp)

/-- Case for `C63_limits_partial`: the same files; the recorded limits come from an examination of all four positions. -/
example : ∃ out l, vtkConvert fullOpts (fin 1) (goFiles.map fun f => vtkOf f.1 f.2) = .ok out ∧ InOrder goFiles l ∧ ∀ i, ScanOf (l.map fun r => r.pos i) (out.attrs.dims i) := by
  obtain ⟨out, h⟩ := goFiles_converted
  obtain ⟨l, h1, h2⟩ := C63_limits_partial fullOpts fullOpts_full (fin 1 : F ℝ) goFiles (by simp [goFiles]) (by simp [goFiles]) out h
  exact ⟨out, l, h, h1, h2⟩

/-- The window of the session with `set_time(1, 2)` shows the second file. -/
theorem case_inTime : inTime (fin 1) (windowOf ([.setTime (fin 1) (fin 2)] : List (Call ℝ))) goFiles = [goRec 2 6 3, goRec 1 1 3] := by
  have hw : windowOf ([.setTime (fin 1) (fin 2)] : List (Call ℝ)) = (fin 1, fin 2) := by
    unfold windowOf settings
    simp [Call.setsTime]
  rw [hw]
  unfold inTime goFiles
  simp only [List.filter_cons, List.filter_nil, goFiles_time, F.le_fin]
  norm_num

/-- A grid of 3×3×3 cells over `[0,12]³`. -/
noncomputable def caseGrid : Grid ℝ := Grid.newCart (fun _ => 3) (finLimits (fun _ => (0 : ℝ)) (fun _ => 12))

theorem caseGrid_fillable (p : Profile) : caseGrid.Fillable p := fillable_cart _ _ (isCart_new _ _ (fun _ => by norm_num))

/-- Case for `C90_numberfield`: after `set_time(1, 2)` the cells hold how many of the two particles of the second file are in them. -/
example (p : Profile) : ∃ out g', Sitting fullOpts (fin 1) goFiles out p [.setTime (fin 1) (fin 2)] ∧
    out.onDisk.answer p ([.setTime (fin 1) (fin 2)] ++ [.numberfield caseGrid]) = .ok (some (.grid g')) ∧
    ∀ c, g'.st.data.get c = fin ((([goRec 2 6 3, goRec 1 1 3].countP fun r => inCell p caseGrid.geom r.pos c : ℕ) : ℝ)) := by
  obtain ⟨out, h⟩ := goFiles_sitting p
  obtain ⟨g', e, _, hc⟩ := C90_numberfield h (by simp [goFiles]) caseGrid (caseGrid_fillable p)
  rw [case_inTime] at hc
  exact ⟨out, g', h, e, hc⟩

/-- Case for `C90_vectorfield`: the mean velocities of the cells are those of the particles of the second file. -/
example (p : Profile) : ∃ out g', Sitting fullOpts (fin 1) goFiles out p [.setTime (fin 1) (fin 2)] ∧
    out.onDisk.answer p ([.setTime (fin 1) (fin 2)] ++ [.vectorfield caseGrid]) = .ok (some (.vec g')) ∧
    ∀ a c, InB caseGrid.geom.cells c → ([goRec 2 6 3, goRec 1 1 3].filter fun r => inCell p caseGrid.geom r.pos c) = [] → (g'.comp a).st.data.get c = nan := by
  obtain ⟨out, h⟩ := goFiles_sitting p
  obtain ⟨g', e, hc⟩ := C90_vectorfield h (by simp [goFiles]) caseGrid (caseGrid_fillable p) (fun c => ⟨rfl, rfl⟩) rfl (fun r a => Up4.val (r.vel a)) (by
    intro f hf r hr a
    simp only [goFiles, List.mem_cons, List.not_mem_nil, or_false] at hf
    rcases hf with rfl | rfl <;> simp only [List.mem_cons, List.not_mem_nil, or_false] at hr <;> rcases hr with rfl | rfl <;> fin_cases a <;> rfl)
  rw [case_inTime] at hc
  exact ⟨out, g', h, e, fun a c hb => (hc a c hb).1⟩

/-- Case for `C90_attributes`: in the same session the data has two timesteps, at the times 0 and 1. -/
example (p : Profile) : ∃ out, Sitting fullOpts (fin 1) goFiles out p [.setTime (fin 1) (fin 2)] ∧
    out.onDisk.answer p ([.setTime (fin 1) (fin 2)] ++ [.len]) = .ok (some (.nat 2)) ∧
    out.onDisk.answer p ([.setTime (fin 1) (fin 2)] ++ [.time]) = .ok (some (.nums [fin 0, fin 1])) := by
  obtain ⟨out, h⟩ := goFiles_sitting p
  obtain ⟨h1, h2, _⟩ := C90_attributes h
  refine ⟨out, h, h1, ?_⟩
  rw [h2]
  unfold goFiles
  simp only [List.map_cons, List.map_nil, goFiles_time]
  norm_num

/-- Case for `C90_extent`: the same session. -/
example (p : Profile) : ∃ out, ∃ lo hi : Fin 3 → F ℝ, Sitting fullOpts (fin 1) goFiles out p [.setTime (fin 1) (fin 2)] ∧
    out.onDisk.answer p ([.setTime (fin 1) (fin 2)] ++ [.dimensions]) = .ok (some (.pairs [(lo 0, hi 0), (lo 1, hi 1), (lo 2, hi 2)])) := by
  obtain ⟨out, h⟩ := goFiles_sitting p
  obtain ⟨lo, hi, h1, _⟩ := C90_extent h
  exact ⟨out, lo, hi, h, h1⟩

/-- Case for `onDisk_update`: the converted files. -/
example (p : Profile) (b : Buf (Timestep ℝ)) : ∃ out, vtkConvert fullOpts (fin 1) (goFiles.map fun f => vtkOf f.1 f.2) = .ok out ∧
    out.file.update p b 0 1 = b.load p .tdata out.onDisk.file out.onDisk.n 0 1 := by
  obtain ⟨out, h⟩ := goFiles_converted
  exact ⟨out, h, onDisk_update p fullOpts fullOpts_full (fin 1) goFiles (by simp [goFiles]) (by simp [goFiles, usizeMod]) (by simp [goFiles]) out h b 0 1⟩

/-- Case for `C88_forget`: in the session on a file of four timesteps the call `len` in between does not change the answer of any later call. -/
example (p : Profile) (c : Call ℝ) (hc : c.Fits 4) :
    let f : OnDisk ℝ := ⟨1, demoFile, 4, ⟨fun _ => (fin 0, fin 2), 1, [], ![fin 5, fin 5, fin 5]⟩, fin 3⟩
    f.answer p ([] ++ [.len] ++ [c]) = f.answer p ([] ++ [c]) := by
  intro f
  refine C88_forget p f (by change 1 ≤ 4; norm_num) (by change 4 ≤ 2 ^ 50; norm_num) [] .len c rfl (by simp) trivial hc ?_
  obtain ⟨d, e, _⟩ := demo_manager p .tdata 4 (by norm_num) (by norm_num)
  have hl : f.load p = .ok ⟨d, f.st, f.maxTime, Selector.default⟩ := by
    unfold OnDisk.load
    rw [if_pos (show f.ty = 1 from rfl)]
    change (Dm.new p .tdata demoFile 4 Timestep.default >>= _) = _
    rw [e]; rfl
  unfold OnDisk.session
  rw [hl, run_bind_ok]
  exact ⟨_, rfl⟩

/-! ### A CSV file of two rows -/

/-- Two rows, at the times 1 and 3. -/
noncomputable def caseRows : List (Row7 ℝ) := [⟨fin 1, fun _ => fin 0, fun _ => fin 0⟩, ⟨fin 3, fun _ => fin 1, fun _ => fin 0⟩]

/-- The numbers in the file. -/
noncomputable def caseRaw : List (List (F ℝ)) := [[fin 1, fin 0, fin 0, fin 0, fin 0, fin 0, fin 0], [fin 3, fin 1, fin 1, fin 1, fin 0, fin 0, fin 0]]

/-- The arguments of the conversion. -/
noncomputable def caseOpts (radius : F ℝ) : CsvOpts ℝ := { cols := [0, 1, 2, 3, 4, 5, 6], vel := false, interp := false, radius := radius, sampling := 9 }

theorem caseRows_of : List.Forall₂ (RowOf [0, 1, 2, 3, 4, 5, 6]) caseRaw caseRows := by
  refine .cons ⟨rfl, fun j => ?_, fun j => ?_⟩ (.cons ⟨rfl, fun j => ?_, fun j => ?_⟩ .nil) <;> fin_cases j <;> rfl

theorem caseRows_sorted : caseRows.Pairwise fun a b => a.t < b.t := by
  simp only [caseRows, List.pairwise_cons, List.mem_singleton, forall_eq, List.not_mem_nil, IsEmpty.forall_iff, implies_true, List.Pairwise.nil, and_true]
  exact (F.lt_fin _ _).2 (by norm_num)

theorem caseRows_pos : ∀ r ∈ caseRows, 0 < r.t := by
  simp only [caseRows, List.mem_cons, List.not_mem_nil, or_false, forall_eq_or_imp, forall_eq, F.zero_def]
  exact ⟨(F.lt_fin _ _).2 (by norm_num), (F.lt_fin _ _).2 (by norm_num)⟩

theorem caseRows_real : ∀ r ∈ caseRows, r.t ≠ nan := by simp [caseRows]

/-- The conversion of the two rows returns and the file holds both. -/
theorem caseRows_converted (lib : FitLib ℝ) (radius : F ℝ) : ∃ out, csvConvert lib (caseOpts radius) caseRaw = .ok out ∧ HoldsRows radius caseRows out := by
  obtain ⟨out, e, _⟩ := C91_csv lib (caseOpts radius) rfl rfl rfl caseRaw caseRows caseRows_of caseRows_sorted caseRows_pos _ rfl (by simp) (by simp [caseRows])
  obtain ⟨sorted, hb, _, hout⟩ := C65_csv lib (caseOpts radius) rfl rfl rfl caseRaw caseRows caseRows_of caseRows_real
  obtain rfl := byTime_strict caseRows_sorted hb
  obtain ⟨kept, hk, hh⟩ := hout out e
  obtain rfl := kept_all caseRows_sorted caseRows_pos hk
  exact ⟨out, e, hh⟩

theorem caseRows_sitting (lib : FitLib ℝ) (radius : F ℝ) (p : Profile) : ∃ out, csvConvert lib (caseOpts radius) caseRaw = .ok out ∧ RowSitting radius caseRows out p [] := by
  obtain ⟨out, e, hh⟩ := caseRows_converted lib radius
  exact ⟨out, e, onDisk_opens hh (by simp [caseRows]) (by simp [caseRows]) p⟩

/-- Case for `C67_recorded_partial`: the two rows. -/
example (lib : FitLib ℝ) (radius : F ℝ) : ∃ out sorted kept, csvConvert lib (caseOpts radius) caseRaw = .ok out ∧ ByTime caseRows sorted ∧ Kept sorted kept ∧ RecordedFor kept out.attrs := by
  obtain ⟨out, e, _⟩ := caseRows_converted lib radius
  obtain ⟨sorted, kept, h1, h2, h3⟩ := C67_recorded_partial lib (caseOpts radius) rfl rfl rfl caseRaw caseRows caseRows_of caseRows_real out e
  exact ⟨out, sorted, kept, e, h1, h2, h3⟩

/-- Case for `C91_means`: both rows are at rest: the mean velocity is 0. -/
example (lib : FitLib ℝ) (radius : F ℝ) (p : Profile) : ∃ out, csvConvert lib (caseOpts radius) caseRaw = .ok out ∧
    (out.onDisk p).answer p ([] ++ [.meanVelocity]) = .ok (some (.num (fin 0))) := by
  obtain ⟨out, e, h⟩ := caseRows_sitting lib radius p
  have := (C91_means h (fun _ _ => 0) (by simp [caseRows]) (fun _ => 0) (by simp)).2
  refine ⟨out, e, this.trans ?_⟩
  simp

/-- Case for `C91_extent`: the same file. -/
example (lib : FitLib ℝ) (radius : F ℝ) (p : Profile) : ∃ out, ∃ lo hi : Fin 3 → F ℝ, csvConvert lib (caseOpts radius) caseRaw = .ok out ∧
    (out.onDisk p).answer p ([] ++ [.minPosition]) = .ok (some (.nums [lo 0, lo 1, lo 2])) ∧ ∀ i, ScanOf [fin 0, fin 1] ⟨lo i, hi i⟩ := by
  obtain ⟨out, e, h⟩ := caseRows_sitting lib radius p
  obtain ⟨lo, hi, _, h2, _, h4⟩ := C91_extent h
  exact ⟨out, lo, hi, e, h2, h4⟩

/-- Case for `C69_byId`: three rows with the ids 7, 2, 7. -/
example : ∃ (keys : List ℕ) (maxT : F ℝ) (maxSteps : ℕ), keys.Pairwise (· < ·) ∧
    sortById [(⟨fin 7, ⟨fin 1, fun _ => 0, fun _ => 0⟩⟩ : Row8 ℝ), ⟨fin 2, ⟨fin 2, fun _ => 0, fun _ => 0⟩⟩, ⟨fin 7, ⟨fin 3, fun _ => 0, fun _ => 0⟩⟩] =
      .ok (keys.map (rowsOf [(⟨fin 7, ⟨fin 1, fun _ => 0, fun _ => 0⟩⟩ : Row8 ℝ), ⟨fin 2, ⟨fin 2, fun _ => 0, fun _ => 0⟩⟩, ⟨fin 7, ⟨fin 3, fun _ => 0, fun _ => 0⟩⟩]), maxT, maxSteps) := by
  obtain ⟨keys, maxT, maxSteps, h1, _, h3⟩ := C69_byId [(⟨fin 7, ⟨fin 1, fun _ => 0, fun _ => 0⟩⟩ : Row8 ℝ), ⟨fin 2, ⟨fin 2, fun _ => 0, fun _ => 0⟩⟩, ⟨fin 7, ⟨fin 3, fun _ => 0, fun _ => 0⟩⟩] (by simp)
  exact ⟨keys, maxT, maxSteps, h1, h3⟩

/-! ### Interrupted conversions -/

/-- Case for `C94_vtk` and `C94_load_time`: the two VTK files; whatever was there before, the finished file is opened as the result of the conversion. -/
example (p : Profile) (old : Option (Part ℝ)) : ∃ out : TOut ℝ, (vtkLog fullOpts (fin 1) (goFiles.map fun f => vtkOf f.1 f.2)).res = .ok () ∧
    replay old (vtkLog fullOpts (fin 1) (goFiles.map fun f => vtkOf f.1 f.2)).writes = some out.part ∧ loadPart p (some out.part) = out.onDisk.load p := by
  obtain ⟨out, h⟩ := goFiles_converted
  have hs := C94_vtk fullOpts (fin 1 : F ℝ) (goFiles.map fun f => vtkOf f.1 f.2)
  rw [h] at hs
  have hr := hs.returns.2 ⟨_, rfl⟩
  obtain ⟨d, hd, hrep⟩ := hs.done hr old
  cases hd
  obtain ⟨out', h', hses⟩ := C61_roundtrip fullOpts fullOpts_full (fin 1 : F ℝ) goFiles (by simp [goFiles]) (by simp [goFiles]) (by simp [goFiles])
    ((C62_times fullOpts fullOpts_full (fin 1 : F ℝ) goFiles (by simp [goFiles]) (by simp [goFiles])).1.1 ⟨out, h⟩)
  rw [h] at h'
  cases h'
  obtain ⟨l, e, _⟩ := hses p Timestep.default [] (by simp)
  obtain ⟨b, hb, _⟩ := run_bind_inv e
  exact ⟨out, hr, hrep, C94_load_time p out ⟨b, hb⟩⟩

/-- Case for `C94_csv`, `C94_load_particle` and `C94_csv_exactly`: the file of two rows. -/
example (lib : FitLib ℝ) (radius : F ℝ) (p : Profile) (old : Option (Part ℝ)) : ∃ out : POut ℝ, (csvLog lib (caseOpts radius) caseRaw).res = .ok () ∧
    replay old (csvLog lib (caseOpts radius) caseRaw).writes = some out.part ∧ loadPart p (some out.part) = (out.onDisk p).load p ∧
    ∃ s, loadPart p (replay old (csvLog lib (caseOpts radius) caseRaw).writes) = .ok s := by
  obtain ⟨out, h, hh⟩ := caseRows_converted lib radius
  have hs := C94_csv lib (caseOpts radius) caseRaw
  rw [h] at hs
  have hr := hs.returns.2 ⟨_, rfl⟩
  obtain ⟨d, hd, hrep⟩ := hs.done hr old
  cases hd
  obtain ⟨l, e, _⟩ := hh.2 (by simp [caseRows]) (by simp [caseRows]) p Timestep.default [] (by simp)
  obtain ⟨b, hb, _⟩ := run_bind_inv e
  have hl := C94_load_particle p out ⟨b, hb⟩
  refine ⟨out, hr, hrep, hl, ?_⟩
  have hne : (csvLog lib (caseOpts radius) caseRaw).writes ≠ [] := by
    intro h0
    obtain ⟨d, hd, hrep'⟩ := hs.done hr none
    rw [h0] at hrep'
    cases hrep'
  exact (C94_csv_exactly lib (caseOpts radius) caseRaw h hh (by simp [caseRows]) (by simp [caseRows]) p old List.prefix_rfl hne).1.2 rfl

theorem case_tableOk (l : List (Row7 ℝ)) (h0 : l ≠ []) (hl : l.length ≤ 500) (hv : ∀ r ∈ l, r.v 2 ≠ nan) : TableOk l := by
  refine ⟨?_, le_trans List.countP_le_length hl, fun r _ _ => le_trans List.countP_le_length (by omega)⟩
  cases l with
  | nil => exact absurd rfl h0
  | cons a l => exact ⟨a, rfl, hv a List.mem_cons_self⟩

/-- Case for `C94_chain`: a trajectory of ten rows that is repeated. -/
example (lib : FitLib ℝ) (old : Option (Part ℝ)) : ∃ (raw : List (List (F ℝ))) (out : POut ℝ), (chainLog lib (caseOpts (fin 1)) raw).res = .ok () ∧
    replay old (chainLog lib (caseOpts (fin 1)) raw).writes = some out.part := by
  have hrow : List.Forall₂ (RowOf [0, 1, 2, 3, 4, 5, 6]) ((tenRows ++ tenRows).map fun r => [r.t, r.p 0, r.p 1, r.p 2, r.v 0, r.v 1, r.v 2]) (tenRows ++ tenRows) := by
    rw [List.forall₂_map_left_iff, List.forall₂_same]
    intro r _
    refine ⟨rfl, fun j => ?_, fun j => ?_⟩ <;> fin_cases j <;> rfl
  have hval : ∀ r ∈ tenRows ++ tenRows, r.t ≠ nan ∧ r.v 2 ≠ nan := by
    intro r hr
    have : r ∈ tenRows := by simpa using hr
    obtain ⟨k, _, rfl⟩ := List.mem_map.1 this
    exact ⟨by simp, by rw [F.zero_def]; simp⟩
  have hlen : (tenRows ++ tenRows).length = 20 := by simp [tenRows]
  obtain ⟨segs, htr, hiff, _⟩ := C68_chain_partial lib (caseOpts (fin 1)) rfl rfl rfl _ (tenRows ++ tenRows) hrow (fun r hr => (hval r hr).1)
    (by intro h; rw [h] at hlen; cases hlen)
  obtain ⟨out, h⟩ := hiff.2 (fun t ht => by
    have hm : t ∈ segs := List.mem_of_mem_dropLast (List.mem_of_mem_filter ht)
    have hsub : t.Sublist (tenRows ++ tenRows) := by rw [← htr.all]; exact List.sublist_flatten_of_mem hm
    exact case_tableOk t (htr.nonempty t hm) (by have := hsub.length_le; omega) (fun r hr => (hval r (hsub.subset hr)).2))
  have hs := C94_chain lib (caseOpts (fin 1)) ((tenRows ++ tenRows).map fun r => [r.t, r.p 0, r.p 1, r.p 2, r.v 0, r.v 1, r.v 2])
  rw [h] at hs
  have hr := hs.returns.2 ⟨_, rfl⟩
  obtain ⟨d, hd, hrep⟩ := hs.done hr old
  cases hd
  exact ⟨_, out, hr, hrep⟩

/-- Case for `C94_id`: the file of `C69_false`, with two particles. -/
example (lib : FitLib ℝ) (old : Option (Part ℝ)) : ∃ (o : CsvOpts ℝ) (raw : List (List (F ℝ))) (out : POut ℝ), out.groups.length = 2 ∧ (idLog lib o raw).res = .ok () ∧
    replay old (idLog lib o raw).writes = some out.part := by
  obtain ⟨o, raw, rows, out, _, _, _, _, _, h, h2, _⟩ := C69_false (K := ℝ) lib
  have hs := C94_id lib o raw
  rw [h] at hs
  have hr := hs.returns.2 ⟨_, rfl⟩
  obtain ⟨d, hd, hrep⟩ := hs.done hr old
  cases hd
  exact ⟨o, raw, out, h2, hr, hrep⟩

/-- Case for `C94_files`: a file with two particles and one with one. -/
example (old : Option (Part ℝ)) : ∃ out : TOut ℝ, (fileLog [0, 1, 2, 3, 4, 5, 6] [(1 : F ℝ), fin 2] twoFiles).res = .ok () ∧
    replay old (fileLog [0, 1, 2, 3, 4, 5, 6] [(1 : F ℝ), fin 2] twoFiles).writes = some out.part := by
  obtain ⟨out, h, -⟩ := C70_files [0, 1, 2, 3, 4, 5, 6] (Or.inr rfl) [(1 : F ℝ), fin 2] twoFiles twoFilesRows twoFiles_rows (by simp [twoFiles])
    (by simp [twoFiles]) (by norm_num [twoFiles])
  have hs := C94_files [0, 1, 2, 3, 4, 5, 6] [(1 : F ℝ), fin 2] twoFiles
  rw [h] at hs
  have hr := hs.returns.2 ⟨_, rfl⟩
  obtain ⟨d, hd, hrep⟩ := hs.done hr old
  cases hd
  exact ⟨out, hr, hrep⟩

/-! ### Interpolated tables -/

theorem case_fits (h : ℕ) (src : List (Row4 ℝ)) : Fits squareLib h src := fun _ _ _ => ⟨_, rfl⟩

/-- Case for `C66_interpolated`: three rows and a window of three. -/
example : let rows : List (Row4 ℝ) := [⟨fin 1, fun _ => fin 0⟩, ⟨fin 3, fun _ => fin 1⟩, ⟨fin 4, fun _ => fin 1⟩]
    ∃ tab table, InterpTable (rows.map fun r => ⟨r.t - fin 1, r.p⟩) (fin 4 - fin 1) 3 tab ∧ VelTable squareLib 1 tab table := by
  intro rows
  obtain ⟨tab, table, h1, h2, _⟩ := C66_interpolated squareLib ⟨[0, 1, 2, 3], true, true, fin 1, 3⟩ rfl rfl rfl 1 le_rfl rfl
    [[fin 1, fin 0, fin 0, fin 0], [fin 3, fin 1, fin 1, fin 1], [fin 4, fin 1, fin 1, fin 1]] rows
    (by refine .cons ⟨rfl, fun j => ?_⟩ (.cons ⟨rfl, fun j => ?_⟩ (.cons ⟨rfl, fun j => ?_⟩ .nil)) <;> fin_cases j <;> rfl)
    (by
      simp only [rows, List.pairwise_cons, List.mem_cons, List.not_mem_nil, or_false, forall_eq_or_imp, forall_eq, IsEmpty.forall_iff, implies_true, List.Pairwise.nil, and_true, F.le_fin]
      norm_num)
    ⟨fin 1, fun _ => fin 0⟩ ⟨fin 4, fun _ => fin 1⟩ rfl rfl (by simp [rows]) (by simp [rows]) (by simp [rows]) (fun _ _ => case_fits _ _)
  exact ⟨tab, table, h1, h2⟩

theorem tenPos_real : ∀ r ∈ tenPos ++ tenPos, r.t ≠ nan := by
  intro r hr
  have : r ∈ tenPos := by simpa using hr
  obtain ⟨k, _, rfl⟩ := List.mem_map.1 this
  simp

/-- Case for `C68_interpolated_partial`: ten positions, repeated: there are tables of interpolated trajectories. -/
example : ∃ (segs : List (List (Row7 ℝ))) (T : F ℝ) (n : ℕ), Trajectories ((tenPos ++ tenPos).map wide) segs ∧ (n < 200000 →
    ∃ tables, List.Forall₂ (fun s t => ∃ tab, InterpTable (s.map Row7.four) T n tab ∧ VelTable squareLib 4 tab t) (usedOf segs) tables) := by
  obtain ⟨segs, T, n, h1, _, _, _, h5⟩ := C68_interpolated_partial squareLib ⟨[0, 1, 2, 3], true, true, fin 1, 9⟩ rfl rfl rfl
    ((tenPos ++ tenPos).map fun r => [r.t, r.p 0, r.p 1, r.p 2]) (tenPos ++ tenPos)
    (by
      rw [List.forall₂_map_left_iff, List.forall₂_same]
      intro r _
      refine ⟨rfl, fun j => ?_⟩
      fin_cases j <;> rfl) tenPos_real (by simp [tenPos])
  refine ⟨segs, T, n, h1, fun hn => ?_⟩
  obtain ⟨tables, ht, _⟩ := h5 hn (fun _ _ _ _ => case_fits _ _)
  exact ⟨tables, ht⟩

/-- Case for `C69_interpolated_partial`: ten positions of the particle 3. -/
example : ∃ (keys : List ℕ) (sorted : ℕ → List (Row7 ℝ)) (T : F ℝ) (n : ℕ), (∀ i, i ∈ keys ↔ ∃ r ∈ tenPos.map fun r => ((fin 3 : F ℝ), r), r.1.toUsize = i) ∧ (0 ≤ T → 10 ≤ n → n ≤ 2 ^ 53 →
    ∃ tables, List.Forall₂ (fun i t => ∃ tab, InterpTable ((sorted i).map Row7.four) T n tab ∧ VelTable squareLib 4 tab t) keys tables) := by
  obtain ⟨keys, sorted, T, n, _, h2, _, _, _, _, _, h8⟩ := C69_interpolated_partial squareLib ⟨[0, 1, 2, 3, 4], true, true, fin 1, 9⟩ rfl rfl rfl
    (tenPos.map fun r => [r.t, fin 3, r.p 0, r.p 1, r.p 2]) (tenPos.map fun r => ((fin 3 : F ℝ), r))
    (by
      rw [List.forall₂_map_left_iff, List.forall₂_map_right_iff, List.forall₂_same]
      intro r _
      refine ⟨rfl, rfl, fun j => ?_⟩
      fin_cases j <;> rfl)
    (by
      intro r hr
      obtain ⟨x, hx, rfl⟩ := List.mem_map.1 hr
      exact tenPos_real x (List.mem_append_left _ hx)) (by simp [tenPos])
  refine ⟨keys, sorted, T, n, h2, fun a b c => ?_⟩
  obtain ⟨tables, ht, _⟩ := h8 a b c (fun _ _ _ _ => case_fits _ _)
  exact ⟨tables, ht⟩

end Up4
