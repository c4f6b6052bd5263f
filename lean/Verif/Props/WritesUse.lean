import Verif.Props.Writes
import Verif.Props.EndToEndCsv

set_option linter.unusedSectionVars false

/-!
# C94 for files that can be converted: exactly the complete file is accepted
-/

namespace Up4
open F Log

variable {K : Type} [Field K] [LinearOrder K] [IsStrictOrderedRing K] [FloorRing K] [Arith K]

theorem run_bind_error' {α β : Type} {r : Run α} {f : α → Run β} {e : Panic} (h : r = .error e) : (r >>= f) = .error e := by
  rw [h]; rfl

theorem full_ok {α : Type} {r : Run α} {f : α → Part K} {a : α} (h : r = .ok a) : (r >>= fun o => pure (f o)) = .ok (f a) := by
  rw [h]; rfl

/-- A complete time-based result loads. -/
theorem tout_loads [LawfulArith K] {o : VtkOpts} (ho : o.Full) {dt : F K} {files : List (ℤ × List (Rec K))} (hf : files ≠ []) (hn : files.length ≤ 2 ^ 50)
    (hr : ∀ f ∈ files, f.2 ≠ []) {out : TOut K} (h : vtkConvert o dt (files.map fun f => vtkOf f.1 f.2) = .ok out) (p : Profile) :
    ∃ s, loadPart p (some out.part) = .ok s ∧ out.onDisk.load p = .ok s := by
  obtain ⟨hiff, _⟩ := C62_times o ho dt files hf hr
  have hc := hiff.1 ⟨out, h⟩
  obtain ⟨out', h', hs⟩ := C61_roundtrip o ho dt files hf hn hr hc
  rw [h] at h'
  cases h'
  obtain ⟨l, e, _⟩ := hs p Timestep.default [] (by simp)
  obtain ⟨b, hb, _⟩ := run_bind_inv e
  have hv := holdsVtk o ho dt files hf hr out h
  have hpos := List.length_pos_iff.2 hf
  obtain ⟨d, e1, _⟩ := Dm.new_ok p .tdata out.onDisk.file out.onDisk.n Timestep.default (by rw [hv.num]; omega) (by rw [hv.num]; exact hn)
  have hl : out.onDisk.load p = .ok ⟨d, out.onDisk.st, out.onDisk.maxTime, Selector.default⟩ := by
    unfold OnDisk.load
    rw [if_pos (show out.onDisk.ty = 1 from rfl), e1]
    rfl
  exact ⟨_, by rw [C94_load_time p out ⟨b, hb⟩, hl], hl⟩

/-- **C94** For every list of VTK files that can be converted, every file that was there before, every moment after the first write: `Data` accepts what is there
exactly if the conversion has made its last write, and then it is what was converted. -/
theorem C94_vtk_exactly [LawfulArith K] {o : VtkOpts} (ho : o.Full) {dt : F K} {files : List (ℤ × List (Rec K))} (hf : files ≠ []) (hn : files.length ≤ 2 ^ 50)
    (hr : ∀ f ∈ files, f.2 ≠ []) {out : TOut K} (h : vtkConvert o dt (files.map fun f => vtkOf f.1 f.2) = .ok out) (p : Profile)
    (old : Option (Part K)) {W : List (Wr K)} (hW : W <+: (vtkLog o dt (files.map fun f => vtkOf f.1 f.2)).writes) (hne : W ≠ []) :
    ((∃ s, loadPart p (replay old W) = .ok s) ↔ W = (vtkLog o dt (files.map fun f => vtkOf f.1 f.2)).writes) ∧
    ∀ s, loadPart p (replay old W) = .ok s → out.onDisk.load p = .ok s := by
  have hsafe := C94_vtk o dt (files.map fun f => vtkOf f.1 f.2)
  obtain ⟨s, hs1, hs2⟩ := tout_loads ho hf hn hr h p
  have hdone : ∀ d, (vtkConvert o dt (files.map fun f => vtkOf f.1 f.2) >>= fun o => pure o.part) = .ok d → d = out.part := by
    intro d hd
    rw [h] at hd
    injection hd with hd
    exact hd.symm
  rcases hsafe.crash old W hW with ⟨h0, _⟩ | ⟨hall, d, hd, hrep⟩ | hrej
  · exact absurd h0 hne
  · rw [hrep, hdone d hd]
    refine ⟨⟨fun _ => hall, fun _ => ⟨s, hs1⟩⟩, fun t ht => ?_⟩
    rw [hs1] at ht
    rw [hs2, ht]
  · obtain ⟨e, he⟩ := hrej p
    refine ⟨⟨?_, ?_⟩, ?_⟩
    · rintro ⟨t, ht⟩
      rw [he] at ht; cases ht
    · intro hall
      have hm := hsafe.returns.2 ⟨out.part, full_ok h⟩
      obtain ⟨d, hd, hrep⟩ := hsafe.done hm old
      rw [hall, hrep, hdone d hd, hs1] at he
      cases he
    · intro t ht
      rw [he] at ht; cases ht

/-- **C94** The same for a file of one trajectory. -/
theorem C94_csv_exactly [LawfulArith K] (lib : FitLib K) (o : CsvOpts K) (raw : List (List (F K))) {rows : List (Row7 K)} {out : POut K}
    (h : csvConvert lib o raw = .ok out) (hh : HoldsRows o.radius rows out) (h1 : 1 ≤ rows.length) (h2 : rows.length ≤ 2 ^ 50)
    (p : Profile) (old : Option (Part K)) {W : List (Wr K)} (hW : W <+: (csvLog lib o raw).writes) (hne : W ≠ []) :
    ((∃ s, loadPart p (replay old W) = .ok s) ↔ W = (csvLog lib o raw).writes) ∧
    ∀ s, loadPart p (replay old W) = .ok s → (out.onDisk p).load p = .ok s := by
  have hsafe := C94_csv lib o raw
  obtain ⟨l, e, _⟩ := hh.2 h1 h2 p Timestep.default [] (by simp)
  obtain ⟨b, hb, _⟩ := run_bind_inv e
  obtain ⟨⟨t0, as0⟩, hret⟩ := (onDisk_opens hh h1 h2 p).returned
  obtain ⟨s, hs2, _⟩ := run_bind_inv hret
  have hs1 : loadPart p (some out.part) = .ok s := by rw [C94_load_particle p out ⟨b, hb⟩, hs2]
  have hdone : ∀ d, (csvConvert lib o raw >>= fun o => pure o.part) = .ok d → d = out.part := by
    intro d hd
    rw [h] at hd
    injection hd with hd
    exact hd.symm
  rcases hsafe.crash old W hW with ⟨h0, _⟩ | ⟨hall, d, hd, hrep⟩ | hrej
  · exact absurd h0 hne
  · rw [hrep, hdone d hd]
    refine ⟨⟨fun _ => hall, fun _ => ⟨s, hs1⟩⟩, fun t ht => ?_⟩
    rw [hs1] at ht
    rw [hs2, ht]
  · obtain ⟨e, he⟩ := hrej p
    refine ⟨⟨?_, ?_⟩, ?_⟩
    · rintro ⟨t, ht⟩
      rw [he] at ht; cases ht
    · intro hall
      have hm := hsafe.returns.2 ⟨out.part, full_ok h⟩
      obtain ⟨d, hd, hrep⟩ := hsafe.done hm old
      rw [hall, hrep, hdone d hd, hs1] at he
      cases he
    · intro t ht
      rw [he] at ht; cases ht

theorem vtkLog_returned {o : VtkOpts} {dt : F K} {files : List (VtkFile K)} {out : TOut K} (h : vtkConvert o dt files = .ok out) :
    (vtkLog o dt files).res = .ok () := (C94_vtk o dt files).returns.2 ⟨out.part, full_ok h⟩

theorem vtkLog_failed {o : VtkOpts} {dt : F K} {files : List (VtkFile K)} {e : Panic} (h : vtkConvert o dt files = .error e) :
    ∃ e, (vtkLog o dt files).res = .error e := by
  cases hr : (vtkLog o dt files).res with
  | error e => exact ⟨e, rfl⟩
  | ok u =>
    obtain ⟨d, hd⟩ := (C94_vtk o dt files).returns.1 hr
    rw [h] at hd
    cases hd

theorem vtkLog_starts {o : VtkOpts} {dt : F K} {files : List (VtkFile K)} (hf : files ≠ []) : ∃ l, (vtkLog o dt files).writes = Wr.create :: l := by
  unfold vtkLog
  rw [if_neg hf]
  exact ⟨_, rfl⟩

theorem vtkLog_long {o : VtkOpts} {dt : F K} {files : List (VtkFile K)} {out : TOut K} (h : vtkConvert o dt files = .ok out) :
    8 ≤ (vtkLog o dt files).writes.length := by
  have hm := vtkLog_returned h
  unfold vtkLog at hm ⊢
  by_cases hf : files = []
  · rw [if_pos hf] at hm; cases hm
  rw [if_neg hf] at hm ⊢
  rw [bind_res] at hm
  obtain ⟨_, h1, hm⟩ := run_bind_inv hm
  rw [bind_writes_ok h1]
  rw [bind_res] at hm
  obtain ⟨s, h2, hm⟩ := run_bind_inv hm
  rw [bind_writes_ok h2, attrsLog_writes]
  simp
  omega

theorem vtkLog_refused {o : VtkOpts} {dt : F K} {files : List (VtkFile K)} {e : Panic} (h : vtkConvert o dt files = .error e) (hf : files ≠ []) (p : Profile)
    (old : Option (Part K)) : ∃ e', loadPart p (replay old (vtkLog o dt files).writes) = .error e' := by
  rcases (vtk_shape o dt files).failed e (run_bind_error' h) with h0 | ⟨b, hb, hlast⟩
  · obtain ⟨l, hl⟩ := vtkLog_starts (o := o) (dt := dt) hf
    rw [hl] at h0
    cases h0
  · rw [hb]
    exact load_noLast p old hlast

/-- The hypotheses can be met: a conversion of two files, stopped after five writes over an older file. -/
example (p : Profile) (old : Option (Part ℝ)) :
    ∃ e, loadPart p (replay old ((vtkLog fullOpts (fin 1) (goFiles.map fun f => vtkOf f.1 f.2)).writes.take 5)) = .error e := by
  obtain ⟨out, h⟩ := goFiles_converted
  have hlen := vtkLog_long h
  generalize hW : (vtkLog fullOpts (fin 1) (goFiles.map fun f => vtkOf f.1 f.2)).writes.take 5 = W
  have hne : W ≠ [] := by
    intro h0
    have := congrArg List.length (hW.trans h0)
    rw [List.length_take] at this
    simp only [List.length_nil] at this
    omega
  obtain ⟨hi, _⟩ := C94_vtk_exactly fullOpts_full (by simp [goFiles]) (by simp [goFiles]) (by simp [goFiles]) h p old (W := W)
    (by rw [← hW]; exact List.take_prefix 5 _) hne
  cases hl : loadPart p (replay old W) with
  | error e => exact ⟨e, rfl⟩
  | ok s =>
    have := congrArg List.length (hW.trans (hi.1 ⟨s, hl⟩))
    rw [List.length_take] at this
    omega

/-- **C94, what is not guaranteed:** the file that was there before is lost as soon as the conversion begins, also if the conversion then refuses its input:
a complete file that loads is replaced by one that does not. -/
theorem C94_keeps_false (p : Profile) : ∃ (old : Part ℝ) (o : VtkOpts) (files : List (VtkFile ℝ)) (e : Panic), (∃ s, loadPart p (some old) = .ok s) ∧
    (vtkLog o (fin 1 : F ℝ) files).res = .error e ∧ ∃ e', loadPart p (replay (some old) (vtkLog o (fin 1) files).writes) = .error e' := by
  obtain ⟨out, h⟩ := goFiles_converted
  obtain ⟨s, hs, _⟩ := tout_loads fullOpts_full (by simp [goFiles]) (by simp [goFiles]) (by simp [goFiles]) h p
  obtain ⟨e, he⟩ := C62_options { fullOpts with hasId := false } (by intro hf; cases hf.1) (fin 1 : F ℝ) goFiles
  obtain ⟨e2, he2⟩ := vtkLog_failed he
  exact ⟨out.part, _, _, e2, ⟨s, hs⟩, he2, vtkLog_refused he (by simp [goFiles]) p _⟩

end Up4
