import Verif.Props.OccupancyAccuracy
import Verif.Props.Accuracy
import Verif.Props.EndToEnd
import Verif.Props.CsvSteps
import Verif.Props.EndToEndCsv

set_option linter.unusedSectionVars false

/-! # C145: the recorded velocity statistics are accurate in floating-point arithmetic -/

namespace Up4
open F

variable {K : Type} [Field K] [LinearOrder K] [IsStrictOrderedRing K] [FloorRing K] [Arith K]

/-- The speed the converters compute. -/
theorem speed_near [LawfulArith K] [RoundedArith K] (x : Fin 3 → F K) (v : Fin 3 → K) (s : K) (hx : StoredVel x v) (h0 : 0 ≤ s)
    (hs : s * s = v 0 * v 0 + v 1 * v 1 + v 2 * v 2) :
    ∃ w, speed x = fin w ∧ IsDouble w ∧ |w - s| ≤ |s| / 2 ^ 51 + speck K ∧ |s| ≤ 2 * large K := by
  obtain ⟨vcal, hv, w, h⟩ := mode_accurate "absolute" x v s hx (Or.inr (Or.inr (Or.inr ⟨h0, Or.inl ⟨rfl, hs⟩⟩)))
  cases hv
  refine ⟨w, ?_, h.2⟩
  rw [← h.1]
  unfold speed
  rw [zero_plus (x 0 * x 0)]
  · rfl
  · intro y hy
    rw [(hx 0).1, F.mul_fin] at hy
    exact double_of_rnd hy

/-- The means the converters store for some particles: those of the velocities and speeds, up to rounding. -/
theorem means_near [LawfulArith K] [RoundedArith K] {α : Type} (l : List α) (hne : l ≠ []) (hlen : l.length < 2 ^ 52) (vel : α → Fin 3 → F K) (v : α → Fin 3 → K)
    (s : α → K) (hv : ∀ r ∈ l, StoredVel (vel r) (v r)) (hs : ∀ r ∈ l, 0 ≤ s r ∧ s r * s r = v r 0 * v r 0 + v r 1 * v r 1 + v r 2 * v r 2) :
    (∀ i, ∃ y, (l.map fun r => vel r i).foldl (· + ·) 0 / F.ofNat l.length = fin y ∧
      |y - avg l fun r => v r i| ≤ (l.length + 5) / 2 ^ 52 * avg l (fun r => |v r i|) + 4 / 2 ^ 535) ∧
    ∃ y, (l.map fun r => speed (vel r)).foldl (· + ·) 0 / F.ofNat l.length = fin y ∧ |y - avg l s| ≤ (l.length + 5) / 2 ^ 52 * avg l s + 4 / 2 ^ 535 := by
  have hsp := speck_pos (K := K)
  have h4 : (4 : K) / 2 ^ 535 = 4 * speck K := by unfold speck; ring
  rw [F.ofNat_eq l.length (by omega), h4]
  refine ⟨fun i => ?_, ?_⟩
  · obtain ⟨y, e1, e2⟩ := mean_of_rounded l (fun r => v r i) (fun r => v r i) hne hlen (fun r hr => (hv r hr i).2.1)
      (fun r _ => by rw [sub_self, abs_zero]; positivity)
      (fun r hr => by
        have h : |v r i| ≤ large K := (hv r hr i).2.2
        have h0 := large_pos (K := K)
        change |v r i| ≤ 2 * large K
        linarith)
    refine ⟨y, ?_, e2⟩
    rw [← e1]
    unfold F.sum
    congr 2
    exact List.map_congr_left fun r hr => (hv r hr i).1
  · classical
    have hval : ∀ r ∈ l, ∃ w, speed (vel r) = fin w ∧ IsDouble w ∧ |w - s r| ≤ |s r| / 2 ^ 51 + speck K ∧ |s r| ≤ 2 * large K :=
      fun r hr => speed_near _ _ _ (hv r hr) (hs r hr).1 (hs r hr).2
    choose! w hw using hval
    obtain ⟨y, e1, e2⟩ := mean_of_rounded l w s hne hlen (fun r hr => (hw r hr).2.1) (fun r hr => (hw r hr).2.2.1) (fun r hr => (hw r hr).2.2.2)
    have e3 : l.map (fun r => |s r|) = l.map s := List.map_congr_left fun r hr => abs_of_nonneg (hs r hr).1
    rw [e3] at e2
    refine ⟨y, ?_, e2⟩
    rw [← e1]
    unfold F.sum
    congr 2
    exact List.map_congr_left fun r hr => (hw r hr).1

/-- What a converted file records about the velocities of `l`, up to rounding: the mean of each component and the mean speed. -/
def RecordsMeans {α : Type} (l : List α) (v : α → Fin 3 → K) (s : α → K) (a : Attrs K) : Prop :=
  (∀ i, ∃ y, (a.vel i).2.1 = fin y ∧ |y - avg l fun r => v r i| ≤ (l.length + 5) / 2 ^ 52 * avg l (fun r => |v r i|) + 4 / 2 ^ 535) ∧
  ∃ y, a.mag.2.1 = fin y ∧ |y - avg l s| ≤ (l.length + 5) / 2 ^ 52 * avg l s + 4 / 2 ^ 535

theorem avg_perm {α : Type} {l l' : List α} (h : l.Perm l') (f : α → K) : avg l f = avg l' f := by
  unfold avg
  rw [(h.map f).sum_eq, h.length_eq]

/-- The order of the particles does not matter for what should be recorded. -/
theorem RecordsMeans.perm {α : Type} {l l' : List α} {v : α → Fin 3 → K} {s : α → K} {a : Attrs K} (h : RecordsMeans l v s a) (hp : l.Perm l') : RecordsMeans l' v s a := by
  obtain ⟨h1, h2⟩ := h
  unfold RecordsMeans
  rw [← hp.length_eq]
  simp only [← avg_perm hp]
  exact ⟨h1, h2⟩

/-- **C145, VTK files.** In rounded arithmetic the stored means of the velocity components and of the speed are those over all particles of all files, up to a relative error of
`(n + 5)/2^52`. -/
theorem C145_vtk [LawfulArith K] [RoundedArith K] (o : VtkOpts) (ho : o.Full) (dt : F K) (files : List (ℤ × List (Rec K))) (hf : files ≠ [])
    (hr : ∀ f ∈ files, f.2 ≠ []) (out : TOut K) (h : vtkConvert o dt (files.map fun f => vtkOf f.1 f.2) = .ok out)
    (hlen : (files.flatMap Prod.snd).length < 2 ^ 52) (v : Rec K → Fin 3 → K) (s : Rec K → K)
    (hv : ∀ f ∈ files, ∀ r ∈ f.2, StoredVel r.vel (v r))
    (hs : ∀ f ∈ files, ∀ r ∈ f.2, 0 ≤ s r ∧ s r * s r = v r 0 * v r 0 + v r 1 * v r 1 + v r 2 * v r 2) :
    RecordsMeans (files.flatMap Prod.snd) v s out.attrs := by
  obtain ⟨l, l1, l2, l3, _⟩ := C64_velocity_partial o ho dt files hf hr out h
  have hp := inOrder_perm files l l1
  have hne : l ≠ [] := by
    rintro rfl
    obtain ⟨f, fs, rfl⟩ := List.exists_cons_of_ne_nil hf
    have := hp.nil_eq
    rw [List.flatMap_cons] at this
    exact hr f (by simp) (List.append_eq_nil_iff.1 this.symm).1
  have hm : ∀ r ∈ l, ∃ f ∈ files, r ∈ f.2 := fun r hr => List.mem_flatMap.1 (hp.subset hr)
  obtain ⟨m1, m2⟩ := means_near l hne (by rw [hp.length_eq]; exact hlen) Rec.vel v s
    (fun r hr => by obtain ⟨f, hf, h⟩ := hm r hr; exact hv f hf r h) (fun r hr => by obtain ⟨f, hf, h⟩ := hm r hr; exact hs f hf r h)
  refine RecordsMeans.perm ⟨fun i => ?_, ?_⟩ hp
  · obtain ⟨y, e, b⟩ := m1 i
    exact ⟨y, by rw [l2 i, e], b⟩
  · obtain ⟨y, e, b⟩ := m2
    exact ⟨y, by rw [l3, e], b⟩

/-- **C145, CSV, one trajectory.** The same for the rows a CSV file with velocities becomes. -/
theorem C145_trajectory [LawfulArith K] [RoundedArith K] (lib : FitLib K) (o : CsvOpts K) (hv : o.vel = false) (hi : o.interp = false) (h7 : o.cols.length = 7)
    (raw : List (List (F K))) (rows : List (Row7 K)) (hrow : List.Forall₂ (RowOf o.cols) raw rows) (ht : ∀ r ∈ rows, r.t ≠ nan) (out : POut K)
    (h : csvConvert lib o raw = .ok out) :
    ∃ sorted kept, ByTime rows sorted ∧ Kept sorted kept ∧ ∀ (v : Row7 K → Fin 3 → K) (s : Row7 K → K), kept ≠ [] → kept.length < 2 ^ 52 →
      (∀ r ∈ kept, StoredVel r.v (v r)) → (∀ r ∈ kept, 0 ≤ s r ∧ s r * s r = v r 0 * v r 0 + v r 1 * v r 1 + v r 2 * v r 2) →
      RecordsMeans kept v s out.attrs := by
  obtain ⟨sorted, kept, h1, h2, h3⟩ := C67_recorded_partial lib o hv hi h7 raw rows hrow ht out h
  refine ⟨sorted, kept, h1, h2, fun v s hne hlen hv hs => ?_⟩
  obtain ⟨m1, m2⟩ := means_near kept hne hlen Row7.v v s hv hs
  obtain ⟨_, _, _, _, k1, k2, _⟩ := h3
  refine ⟨fun i => ?_, ?_⟩
  · obtain ⟨y, e, b⟩ := m1 i
    exact ⟨y, by rw [k1 i, e], b⟩
  · obtain ⟨y, e, b⟩ := m2
    exact ⟨y, by rw [k2, e], b⟩

/-- **C145, one CSV file per timestep.** The same for all rows of all files. -/
theorem C145_steps [LawfulArith K] [RoundedArith K] (cols : List ℕ) (hc : cols.length = 4 ∨ cols.length = 7) (times : List (F K)) (files : List (List (List (F K))))
    (rows : List (List (StepRow K))) (h : List.Forall₂ (List.Forall₂ (StepRowOf cols)) files rows) (ht : files.length = times.length) (out : TOut K)
    (ho : fileConvert cols times files = .ok out) (v : StepRow K → Fin 3 → K) (s : StepRow K → K) (hne : rows.flatten ≠ []) (hlen : rows.flatten.length < 2 ^ 52)
    (hv : ∀ r ∈ rows.flatten, StoredVel r.v (v r)) (hs : ∀ r ∈ rows.flatten, 0 ≤ s r ∧ s r * s r = v r 0 * v r 0 + v r 1 * v r 1 + v r 2 * v r 2) :
    RecordsMeans rows.flatten v s out.attrs := by
  obtain ⟨_, _, _, _, _, _, k1, k2, _⟩ := C71_recorded_partial cols hc times files rows h ht out ho
  obtain ⟨m1, m2⟩ := means_near rows.flatten hne hlen StepRow.v v s hv hs
  refine ⟨fun i => ?_, ?_⟩
  · obtain ⟨y, e, b⟩ := m1 i
    exact ⟨y, by rw [k1 i, e], b⟩
  · obtain ⟨y, e, b⟩ := m2
    exact ⟨y, by rw [k2, e], b⟩

/-- **C145, mean_velocity.** After any calls on a dataset converted from VTK files, `mean_velocity()` is the mean speed over all particles of all files, up to rounding. -/
theorem C145_mean_velocity [LawfulArith K] [RoundedArith K] {o : VtkOpts} {dt : F K} {files : List (ℤ × List (Rec K))} {out : TOut K} {p : Profile}
    {cs : List (Call K)} (h : Sitting o dt files out p cs) (hlen : (files.flatMap Prod.snd).length < 2 ^ 52) (v : Rec K → Fin 3 → K) (s : Rec K → K)
    (hv : ∀ f ∈ files, ∀ r ∈ f.2, StoredVel r.vel (v r))
    (hs : ∀ f ∈ files, ∀ r ∈ f.2, 0 ≤ s r ∧ s r * s r = v r 0 * v r 0 + v r 1 * v r 1 + v r 2 * v r 2) :
    ∃ y, out.onDisk.answer p (cs ++ [.meanVelocity]) = .ok (some (.num (fin y))) ∧
      |y - avg (files.flatMap Prod.snd) s| ≤ ((files.flatMap Prod.snd).length + 5) / 2 ^ 52 * avg (files.flatMap Prod.snd) s + 4 / 2 ^ 535 := by
  obtain ⟨t, t1, t2, t3, t4, t5, t6, t7, t8⟩ := h.state
  obtain ⟨-, y, e, b⟩ := C145_vtk o h.full dt files h.given h.nonempty out h.converted hlen v s hv hs
  refine ⟨y, ?_, b⟩
  rw [t8]
  change ((pure (t, Answer.num (t.st.speed 1)) : Run _) >>= _) = _
  rw [t4]
  change Except.ok (some (Answer.num out.attrs.mag.2.1)) = _
  rw [e]

/-! ### Case: a VTK file with two particles of speeds 1 and 3, in binary64 -/

/-- The velocities of the two particles. -/
noncomputable def pairVel (r : Rec B64) : Fin 3 → B64 := if r.num = 1 then ![1, 0, 0] else ![0, 3, 0]
/-- Their speeds. -/
noncomputable def pairSpeed (r : Rec B64) : B64 := if r.num = 1 then 1 else 3
/-- The file. -/
noncomputable def pairFiles : List (ℤ × List (Rec B64)) :=
  [(0, [⟨2, fin 1, 1, ![fin 0, fin 3, fin 0], ![fin 0, fin 0, fin 0]⟩, ⟨1, fin 1, 1, ![fin 1, fin 0, fin 0], ![fin 1, fin 1, fin 1]⟩])]

theorem small_stored (n : ℕ) (h : n ≤ 3) : IsDouble (n : B64) ∧ |(n : B64)| ≤ 2 ^ 500 := by
  refine ⟨F.rnd_nat n (by omega), ?_⟩
  rw [Nat.abs_cast]
  have h1 : (n : B64) ≤ 2 ^ 2 := by
    have : (n : B64) ≤ 3 := by exact_mod_cast h
    linarith [show (2 : B64) ^ 2 = 4 by norm_num]
  exact h1.trans (pow_le_pow_right₀ one_le_two (by norm_num))

theorem pair_stored : ∀ f ∈ pairFiles, ∀ r ∈ f.2, StoredVel r.vel (pairVel r) ∧ 0 ≤ pairSpeed r ∧
    pairSpeed r * pairSpeed r = pairVel r 0 * pairVel r 0 + pairVel r 1 * pairVel r 1 + pairVel r 2 * pairVel r 2 := by
  have h0 : IsDouble (0 : B64) ∧ |(0 : B64)| ≤ 2 ^ 500 := by simpa using small_stored 0 (by norm_num)
  have h1 : IsDouble (1 : B64) ∧ |(1 : B64)| ≤ 2 ^ 500 := by simpa using small_stored 1 (by norm_num)
  have h3 : IsDouble (3 : B64) ∧ |(3 : B64)| ≤ 2 ^ 500 := by simpa using small_stored 3 (by norm_num)
  intro f hf r hr
  unfold pairFiles at hf
  rw [List.mem_singleton] at hf
  subst hf
  simp only [List.mem_cons, List.not_mem_nil, or_false] at hr
  rcases hr with rfl | rfl
  · refine ⟨fun a => ?_, ?_, ?_⟩
    · fin_cases a
      · exact ⟨rfl, h0⟩
      · exact ⟨rfl, h3⟩
      · exact ⟨rfl, h0⟩
    · simp [pairSpeed]
    · simp [pairSpeed, pairVel]
  · refine ⟨fun a => ?_, ?_, ?_⟩
    · fin_cases a
      · exact ⟨rfl, h1⟩
      · exact ⟨rfl, h0⟩
      · exact ⟨rfl, h0⟩
    · simp [pairSpeed]
    · simp [pairSpeed, pairVel]

theorem pair_sitting (p : Profile) : ∃ out, Sitting fullOpts (fin 1) pairFiles out p [] := by
  have hconv : ∃ out, vtkConvert fullOpts (fin 1) (pairFiles.map fun f => vtkOf f.1 f.2) = .ok out := by
    refine ((C62_times fullOpts fullOpts_full (fin 1) pairFiles (by simp [pairFiles]) (by simp [pairFiles])).1).2 ?_
    have : fileTime (fin 1 : F B64) 0 = 0 := by
      unfold fileTime ofInt
      rw [Int.cast_zero, F.rnd_zero, F.mul_fin, zero_mul, F.rnd_zero, F.zero_def]
    unfold fileTimes pairFiles
    simp only [List.map_cons, List.map_nil, this, List.isChain_cons_cons, List.isChain_singleton, and_true]
    rw [F.zero_def, F.lt_fin]; exact lt_irrefl _
  obtain ⟨out, h⟩ := hconv
  have hv := holdsVtk fullOpts fullOpts_full (fin 1) pairFiles (by simp [pairFiles]) (by simp [pairFiles]) out h
  refine ⟨out, fullOpts_full, by simp [pairFiles], by simp [pairFiles], by simp [pairFiles], h, fun c hc => absurd hc (by simp), ?_⟩
  rcases load_alike p out.onDisk (by rw [hv.num]; simp [pairFiles]) (by rw [hv.num]; simp [pairFiles]) with ⟨e, he⟩ | ⟨kind, s, he, hs⟩
  · exfalso
    unfold OnDisk.load at he
    rw [if_pos (show out.onDisk.ty = 1 from rfl)] at he
    obtain ⟨d, e1, _⟩ := Dm.new_ok p .tdata out.onDisk.file out.onDisk.n Timestep.default (by rw [hv.num]; simp [pairFiles]) (by rw [hv.num]; simp [pairFiles])
    rw [e1] at he
    cases he
  · refine ⟨(s, []), ?_⟩
    unfold OnDisk.session
    rw [he, run_bind_ok]
    rfl

/-- Case for `C145_mean_velocity` and `C145_vtk`: in binary64 the mean speed of the two particles is 2 up to an error of less than `2^-48`. -/
example (p : Profile) : ∃ (out : TOut B64) (y : B64), Sitting fullOpts (fin 1) pairFiles out p [] ∧ out.onDisk.answer p [.meanVelocity] = .ok (some (.num (fin y))) ∧
    RecordsMeans (pairFiles.flatMap Prod.snd) pairVel pairSpeed out.attrs ∧ |y - 2| ≤ ((2 : ℕ) + 5) / 2 ^ 52 * 2 + 4 / 2 ^ 535 := by
  obtain ⟨out, h⟩ := pair_sitting p
  have hl : (pairFiles.flatMap Prod.snd).length = 2 := rfl
  have hlen : (pairFiles.flatMap Prod.snd).length < 2 ^ 52 := by rw [hl]; norm_num
  obtain ⟨y, e, b⟩ := C145_mean_velocity h hlen pairVel pairSpeed (fun f hf r hr => (pair_stored f hf r hr).1) (fun f hf r hr => (pair_stored f hf r hr).2)
  have havg : avg (pairFiles.flatMap Prod.snd) pairSpeed = 2 := by
    unfold avg
    rw [hl]
    have : ((pairFiles.flatMap Prod.snd).map pairSpeed) = [3, 1] := by simp [pairFiles, pairSpeed]
    rw [this]
    norm_num
  rw [havg, hl] at b
  exact ⟨out, y, h, e, C145_vtk fullOpts h.full (fin 1) pairFiles h.given h.nonempty out h.converted hlen pairVel pairSpeed
    (fun f hf r hr => (pair_stored f hf r hr).1) (fun f hf r hr => (pair_stored f hf r hr).2), b⟩

/-! ### Case: CSV rows and CSV files with the same two velocities -/

/-- Two rows, at the times 1 and 3. -/
noncomputable def pairRows : List (Row7 B64) := [⟨fin 1, fun _ => fin 0, ![fin 1, fin 0, fin 0]⟩, ⟨fin 3, fun _ => fin 1, ![fin 0, fin 3, fin 0]⟩]

/-- The numbers in the file. -/
noncomputable def pairRaw : List (List (F B64)) := [[fin 1, fin 0, fin 0, fin 0, fin 1, fin 0, fin 0], [fin 3, fin 1, fin 1, fin 1, fin 0, fin 3, fin 0]]

/-- The arguments of the conversion. -/
noncomputable def pairOpts (radius : F B64) : CsvOpts B64 := { cols := [0, 1, 2, 3, 4, 5, 6], vel := false, interp := false, radius := radius, sampling := 9 }

theorem pairRows_of : List.Forall₂ (RowOf [0, 1, 2, 3, 4, 5, 6]) pairRaw pairRows := by
  refine .cons ⟨rfl, fun j => ?_, fun j => ?_⟩ (.cons ⟨rfl, fun j => ?_, fun j => ?_⟩ .nil) <;> fin_cases j <;> rfl

theorem pairRows_sorted : pairRows.Pairwise fun a b => a.t < b.t := by
  simp only [pairRows, List.pairwise_cons, List.mem_singleton, forall_eq, List.not_mem_nil, IsEmpty.forall_iff, implies_true, List.Pairwise.nil, and_true]
  exact (F.lt_fin _ _).2 (by norm_num)

theorem pairRows_pos : ∀ r ∈ pairRows, 0 < r.t := by
  simp only [pairRows, List.mem_cons, List.not_mem_nil, or_false, forall_eq_or_imp, forall_eq, F.zero_def]
  exact ⟨(F.lt_fin _ _).2 (by norm_num), (F.lt_fin _ _).2 (by norm_num)⟩

/-- The velocity 1 in the first, 3 in the second row. -/
theorem pair_velocities : StoredVel ![fin 1, fin 0, fin 0] ![(1 : B64), 0, 0] ∧ StoredVel ![fin 0, fin 3, fin 0] ![(0 : B64), 3, 0] := by
  have h0 : IsDouble (0 : B64) ∧ |(0 : B64)| ≤ 2 ^ 500 := by simpa using small_stored 0 (by norm_num)
  have h1 : IsDouble (1 : B64) ∧ |(1 : B64)| ≤ 2 ^ 500 := by simpa using small_stored 1 (by norm_num)
  have h3 : IsDouble (3 : B64) ∧ |(3 : B64)| ≤ 2 ^ 500 := by simpa using small_stored 3 (by norm_num)
  constructor <;> intro a <;> fin_cases a
  · exact ⟨rfl, h1⟩
  · exact ⟨rfl, h0⟩
  · exact ⟨rfl, h0⟩
  · exact ⟨rfl, h0⟩
  · exact ⟨rfl, h3⟩
  · exact ⟨rfl, h0⟩

/-- Case for `C145_trajectory`: the two rows have the speeds 1 and 3; in binary64 the recorded mean speed is 2 up to an error of less than `2^-48`. -/
example (lib : FitLib B64) (radius : F B64) : ∃ (out : POut B64) (y : B64), csvConvert lib (pairOpts radius) pairRaw = .ok out ∧ out.attrs.mag.2.1 = fin y ∧
    |y - 2| ≤ ((2 : ℕ) + 5) / 2 ^ 52 * 2 + 4 / 2 ^ 535 := by
  classical
  obtain ⟨out, e, _⟩ := C91_csv lib (pairOpts radius) rfl rfl rfl pairRaw pairRows pairRows_of pairRows_sorted pairRows_pos _ rfl (by simp) (by simp [pairRows])
  obtain ⟨sorted, kept, h1, h2, h3⟩ := C145_trajectory lib (pairOpts radius) rfl rfl rfl pairRaw pairRows pairRows_of (by simp [pairRows]) out e
  obtain rfl := byTime_strict pairRows_sorted h1
  obtain rfl := kept_all pairRows_sorted pairRows_pos h2
  obtain ⟨v1, v2⟩ := pair_velocities
  have ht : (fin 3 : F B64) ≠ fin 1 := by intro h; injection h with h; norm_num at h
  obtain ⟨-, y, e1, e2⟩ := h3 (fun r => if r.t = fin 1 then ![1, 0, 0] else ![0, 3, 0]) (fun r => if r.t = fin 1 then 1 else 3) (by simp [pairRows]) (by rw [show pairRows.length = 2 from rfl]; norm_num)
    (by
      intro r hr
      simp only [pairRows, List.mem_cons, List.not_mem_nil, or_false] at hr
      rcases hr with rfl | rfl
      · simpa using v1
      · simpa [ht] using v2)
    (by
      intro r hr
      simp only [pairRows, List.mem_cons, List.not_mem_nil, or_false] at hr
      rcases hr with rfl | rfl
      · simp
      · simp [ht])
  refine ⟨out, y, e, e1, ?_⟩
  have ha : avg pairRows (fun r => if r.t = fin 1 then (1 : B64) else 3) = 2 := by
    unfold avg pairRows
    simp only [List.map_cons, List.map_nil, if_true, if_neg ht, List.sum_cons, List.sum_nil, List.length_cons, List.length_nil]
    norm_num
  rw [ha] at e2
  exact e2

/-- Case for `C145_steps`: two files with one row each. -/
example : ∃ (out : TOut B64) (y : B64), fileConvert [0, 1, 2, 3, 4, 5, 6] [fin 1, fin 3] [[[fin 7, fin 0, fin 0, fin 0, fin 1, fin 0, fin 0]], [[fin 7, fin 1, fin 1, fin 1, fin 0, fin 3, fin 0]]] = .ok out ∧
    out.attrs.mag.2.1 = fin y ∧ |y - 2| ≤ ((2 : ℕ) + 5) / 2 ^ 52 * 2 + 4 / 2 ^ 535 := by
  classical
  have hrows : List.Forall₂ (List.Forall₂ (StepRowOf [0, 1, 2, 3, 4, 5, 6])) [[[fin 7, fin 0, fin 0, fin 0, fin 1, fin 0, fin 0]], [[fin 7, fin 1, fin 1, fin 1, fin 0, fin 3, fin 0]]]
      [[(⟨fin 7, fun _ => fin 0, ![fin 1, fin 0, fin 0]⟩ : StepRow B64)], [⟨fin 7, fun _ => fin 1, ![fin 0, fin 3, fin 0]⟩]] := by
    refine .cons (.cons ⟨rfl, fun j => ?_, fun _ j => ?_, fun h => by simp at h⟩ .nil) (.cons (.cons ⟨rfl, fun j => ?_, fun _ j => ?_, fun h => by simp at h⟩ .nil) .nil) <;> fin_cases j <;> rfl
  obtain ⟨out, e, -⟩ := C70_files [0, 1, 2, 3, 4, 5, 6] (Or.inr rfl) [(fin 1 : F B64), fin 3] _ _ hrows (by simp) (by simp) (by simp)
  obtain ⟨v1, v2⟩ := pair_velocities
  have hx : (![fin 0, fin 3, fin 0] : Fin 3 → F B64) 1 ≠ fin 0 := by simp
  obtain ⟨-, y, e1, e2⟩ := C145_steps [0, 1, 2, 3, 4, 5, 6] (Or.inr rfl) [(fin 1 : F B64), fin 3] _ _ hrows rfl out e
    (fun r => if r.v 1 = fin 0 then ![1, 0, 0] else ![0, 3, 0]) (fun r => if r.v 1 = fin 0 then 1 else 3) (by simp) (by simp)
    (by
      intro r hr
      simp only [List.flatten_cons, List.flatten_nil, List.append_nil, List.cons_append, List.nil_append, List.mem_cons, List.not_mem_nil, or_false] at hr
      rcases hr with rfl | rfl
      · simpa using v1
      · simpa using v2)
    (by
      intro r hr
      simp only [List.flatten_cons, List.flatten_nil, List.append_nil, List.cons_append, List.nil_append, List.mem_cons, List.not_mem_nil, or_false] at hr
      rcases hr with rfl | rfl
      · simp
      · simp)
  refine ⟨out, y, e, e1, ?_⟩
  simp only [List.flatten_cons, List.flatten_nil, List.append_nil, List.cons_append, List.nil_append] at e2
  have ha : avg [(⟨fin 7, fun _ => fin 0, ![fin 1, fin 0, fin 0]⟩ : StepRow B64), ⟨fin 7, fun _ => fin 1, ![fin 0, fin 3, fin 0]⟩] (fun r => if r.v 1 = fin 0 then (1 : B64) else 3) = 2 := by
    unfold avg
    simp
    norm_num
  rw [ha] at e2
  exact e2

end Up4
