import Verif.Props.CsvMulti

set_option linter.unusedSectionVars false

/-! # C70, C71: one CSV file per timestep -/

namespace Up4
open F
open Selector (at')

variable {K : Type} [Field K] [LinearOrder K] [IsStrictOrderedRing K] [FloorRing K] [Arith K]

/-! ### Specification -/

/-- A particle in a file: id, position, velocity. -/
structure StepRow (K : Type) where
  id : F K
  p : Pos K
  v : Fin 3 → F K

/-- `r` is the particle of the columns id, x, y, z and, if there are seven columns, vx, vy, vz of a line; with four columns its velocity is NaN. -/
def StepRowOf (cols : List ℕ) (cells : List (F K)) (r : StepRow K) : Prop :=
  (cols[0]?).bind (fun c => cells[c]?) = some r.id ∧
  (∀ j : Fin 3, (cols[1 + (j : ℕ)]?).bind (fun c => cells[c]?) = some (r.p j)) ∧
  (cols.length = 7 → ∀ j : Fin 3, (cols[4 + (j : ℕ)]?).bind (fun c => cells[c]?) = some (r.v j)) ∧
  (cols.length = 4 → ∀ j : Fin 3, r.v j = nan)

/-- The timestep holds the particles in the order of the file; radius, type and cloud size are 0. -/
def IsStep (time : F K) (rs : List (StepRow K)) (ts : Timestep K) : Prop :=
  ts.time = time ∧ ts.particleid = rs.map StepRow.id ∧ ts.position = rs.map StepRow.p ∧ ts.velocity = rs.map StepRow.v ∧
  ts.radius = rs.map (fun _ => 0) ∧ ts.ptype = rs.map (fun _ => 0) ∧ ts.clouds = rs.map fun _ => 0

/-! ### Reading the columns -/

/-- The row read for a particle. -/
def StepRow.row (r : StepRow K) : Row8 K := ⟨r.id, .nan, r.p, r.v⟩

theorem pickStepRow_ok (cols : List ℕ) (hc : cols.length = 4 ∨ cols.length = 7) (cells : List (F K)) (r : StepRow K) (h : StepRowOf cols cells r) :
    pickStepRow cols cells = .ok r.row := by
  obtain ⟨h0, hp, hv, hn⟩ := h
  have hp0 := hp 0
  have hp1 := hp 1
  have hp2 := hp 2
  rcases hc with h4 | h7
  · obtain ⟨c0, c1, c2, c3, rfl⟩ : ∃ a b c d, cols = [a, b, c, d] := by
      match cols, h4 with
      | [a, b, c, d], _ => exact ⟨a, b, c, d, rfl⟩
    have hn := hn rfl
    simp at h0 hp0 hp1 hp2
    unfold pickStepRow
    rw [cells_fold _ cells [r.id, r.p 0, r.p 1, r.p 2] (by
      refine .cons ?_ (.cons ?_ (.cons ?_ (.cons ?_ .nil))) <;> assumption)]
    rw [run_bind_ok, run_pure]
    congr 1
    obtain ⟨i, p, v⟩ := r
    dsimp only at hn
    unfold StepRow.row
    congr 2
    · funext i; fin_cases i <;> rfl
    · funext i
      refine Eq.trans ?_ (hn i).symm
      fin_cases i <;> rfl
  · obtain ⟨c0, c1, c2, c3, c4, c5, c6, rfl⟩ : ∃ a b c d e f g, cols = [a, b, c, d, e, f, g] := by
      match cols, h7 with
      | [a, b, c, d, e, f, g], _ => exact ⟨a, b, c, d, e, f, g, rfl⟩
    have hv := hv rfl
    have hv0 := hv 0
    have hv1 := hv 1
    have hv2 := hv 2
    simp at h0 hp0 hp1 hp2 hv0 hv1 hv2
    unfold pickStepRow
    rw [cells_fold _ cells [r.id, r.p 0, r.p 1, r.p 2, r.v 0, r.v 1, r.v 2] (by
      refine .cons ?_ (.cons ?_ (.cons ?_ (.cons ?_ (.cons ?_ (.cons ?_ (.cons ?_ .nil)))))) <;> assumption)]
    rw [run_bind_ok, run_pure]
    congr 1
    obtain ⟨i, p, v⟩ := r
    unfold StepRow.row
    congr 2
    · funext i; fin_cases i <;> rfl
    · funext i; fin_cases i <;> rfl

theorem pickStepRows (cols : List ℕ) (hc : cols.length = 4 ∨ cols.length = 7) (raw : List (List (F K))) (rows : List (StepRow K))
    (h : List.Forall₂ (StepRowOf cols) raw rows) (acc : List (Row8 K)) :
    (raw.foldlM (fun acc r => do pure (acc ++ [← pickStepRow cols r])) acc : Run (List (Row8 K))) = .ok (acc ++ rows.map StepRow.row) := by
  induction h generalizing acc with
  | nil => simp [run_pure]
  | @cons cells r raw rows h _ ih =>
    rw [List.foldlM_cons, pickStepRow_ok cols hc cells r h, run_bind_ok, run_pure, run_bind_ok, ih]
    simp

/-! ### The loop over the files -/

/-- The group written for a file. -/
def stepGroup (time : F K) (rs : List (StepRow K)) : TGroup K :=
  ⟨some time, some (rs.map StepRow.p), some (rs.map StepRow.v), some (rs.map fun _ => 0), none, some (rs.map fun _ => 0), some (rs.map fun _ => 0),
    some (rs.map StepRow.id)⟩

/-- The state after one file. -/
def stepAfter (s : VtkState K) (x : F K × List (StepRow K)) : VtkState K :=
  ⟨s.groups ++ [stepGroup x.1 x.2], (x.2.map StepRow.p).foldl seePos s.dims, x.2.length, s.time0, if x.1 > s.time1 then x.1 else s.time1,
    s.timeArray ++ [x.1], x.1 - s.oldTime, x.1, (x.2.map StepRow.v).foldl VelStats.see s.vel, s.count + x.2.length⟩

theorem fileStep_eq (cols : List ℕ) (hc : cols.length = 4 ∨ cols.length = 7) (times : List (F K)) (s : VtkState K) (raw : List (List (F K)))
    (rs : List (StepRow K)) (h : List.Forall₂ (StepRowOf cols) raw rs) (k : ℕ) (time : F K) (ht : times[k]? = some time) :
    fileStep cols times s (raw, k) = .ok (stepAfter s (time, rs)) := by
  unfold fileStep
  rw [at_getElem? ht, run_bind_ok, pickStepRows cols hc raw rs h [], run_bind_ok]
  dsimp only
  rw [run_pure]
  unfold stepAfter stepGroup
  simp only [List.nil_append, List.map_map, List.length_map]
  rfl

theorem file_loop (cols : List ℕ) (hc : cols.length = 4 ∨ cols.length = 7) (times : List (F K)) (files : List (List (List (F K)))) (rows : List (List (StepRow K)))
    (h : List.Forall₂ (List.Forall₂ (StepRowOf cols)) files rows) (pre rest : List (F K)) (hlen : rest.length = files.length) (post : List (F K))
    (ht : times = pre ++ rest ++ post) (s : VtkState K) :
    (files.zipIdx pre.length).foldlM (fileStep cols times) s = .ok ((rest.zip rows).foldl stepAfter s) := by
  induction h generalizing pre rest s with
  | nil =>
    rw [List.zip_nil_right]
    simp [run_pure]
  | @cons raw rs files rows h _ ih =>
    cases rest with
    | nil => simp at hlen
    | cons time rest =>
      rw [List.zipIdx_cons, List.foldlM_cons, fileStep_eq cols hc times s raw rs h pre.length time (by rw [ht]; simp), run_bind_ok, List.zip_cons_cons,
        List.foldl_cons]
      have := ih (pre ++ [time]) rest (by simpa using hlen) (by rw [ht]; simp) (stepAfter s (time, rs))
      rw [List.length_append, List.length_singleton] at this
      exact this

theorem stepAfter_fields (l : List (F K × List (StepRow K))) (s : VtkState K) :
    let r := l.foldl stepAfter s
    r.groups = s.groups ++ l.map (fun x => stepGroup x.1 x.2) ∧
    r.dims = ((l.flatMap Prod.snd).map StepRow.p).foldl seePos s.dims ∧
    r.vel = ((l.flatMap Prod.snd).map StepRow.v).foldl VelStats.see s.vel ∧ r.count = s.count + (l.flatMap Prod.snd).length ∧
    r.timeArray = s.timeArray ++ l.map Prod.fst ∧ r.time0 = s.time0 ∧ r.time1 = (l.map Prod.fst).foldl (fun a t => if t > a then t else a) s.time1 ∧
    r.np = (l.getLast?.map fun x => x.2.length).getD s.np ∧
    r.oldTime = (l.getLast?.map Prod.fst).getD s.oldTime := by
  induction l generalizing s with
  | nil => simp
  | cons x l ih =>
    obtain ⟨h1, h2, h3, h4, h5, h6, h7, h8, h9⟩ := ih (stepAfter s x)
    rw [List.foldl_cons]
    dsimp only
    refine ⟨?_, ?_, ?_, ?_, ?_, ?_, ?_, ?_, ?_⟩
    · rw [h1]; simp [stepAfter]
    · rw [h2]; simp [stepAfter, List.foldl_append]
    · rw [h3]; simp [stepAfter, List.foldl_append]
    · rw [h4]; simp [stepAfter]; omega
    · rw [h5]; simp [stepAfter]
    · rw [h6]; rfl
    · rw [h7]; rfl
    · rw [h8]
      cases l with
      | nil => rfl
      | cons y l => simp [List.getLast?_cons]
    · rw [h9]
      cases l with
      | nil => rfl
      | cons y l => simp [List.getLast?_cons]

theorem fileConvert_eq (cols : List ℕ) (hc : cols.length = 4 ∨ cols.length = 7) (times : List (F K)) (files : List (List (List (F K))))
    (rows : List (List (StepRow K))) (h : List.Forall₂ (List.Forall₂ (StepRowOf cols)) files rows) (ht : files.length ≤ times.length) :
    let s := ((times.take files.length).zip rows).foldl stepAfter VtkState.init
    fileConvert cols times files = .ok ⟨s.groups, ⟨s.dims, s.np, files.length, s.sampleRate.toUsize, (s.time0, s.time1), fun i => s.vel.attr s.count i,
      s.vel.magAttr s.count, s.timeArray⟩⟩ := by
  unfold fileConvert
  rw [if_neg (by intro h; exact h hc)]
  have := file_loop cols hc times files rows h [] (times.take files.length) (by simp [ht]) (times.drop files.length) (by simp) VtkState.init
  rw [List.length_nil] at this
  rw [this, run_bind_ok, run_pure]

/-! ### C70 -/

/-- **C70.** CSV files (any number up to `2^50`, any particles, four or seven columns), with a time for each, are converted without panic, and whatever is
then read by a time-based manager, in any order and in both build profiles, is the contents of the CSV files: timestep `t` has the `t`-th time and the
particles of the `t`-th file in the order of the file. -/
theorem C70_files [LawfulArith K] (cols : List ℕ) (hc : cols.length = 4 ∨ cols.length = 7) (times : List (F K)) (files : List (List (List (F K))))
    (rows : List (List (StepRow K))) (h : List.Forall₂ (List.Forall₂ (StepRowOf cols)) files rows) (ht : files.length ≤ times.length)
    (hf : files ≠ []) (hn : files.length ≤ 2 ^ 50) :
    ∃ out, fileConvert cols times files = .ok out ∧
      ∀ (p : Profile) (dflt : Timestep K) (ts : List ℕ), (∀ t ∈ ts, t < files.length) →
        ∃ l, out.file.session p dflt ts = .ok l ∧
          List.Forall₂ (fun t x => ∃ time rs, times[t]? = some time ∧ rows[t]? = some rs ∧ IsStep time rs x) ts l := by
  refine ⟨_, fileConvert_eq cols hc times files rows h ht, ?_⟩
  intro p dflt ts hts
  have hlen := h.length_eq
  obtain ⟨hg, -⟩ := stepAfter_fields ((times.take files.length).zip rows) VtkState.init
  have hg' : (((times.take files.length).zip rows).foldl stepAfter VtkState.init).groups = ((times.take files.length).zip rows).map (fun x => stepGroup x.1 x.2) := hg
  dsimp only [TOut.file]
  rw [hg']
  have hzl : ((times.take files.length).zip rows).length = files.length := by simp; omega
  have hpos : 1 ≤ files.length := by
    cases files with
    | nil => exact absurd rfl hf
    | cons _ _ => simp
  obtain ⟨l, e, hl⟩ := C59_stored p (⟨.tdata, ((times.take files.length).zip rows).map (fun x => stepGroup x.1 x.2), [], files.length,
    (((times.take files.length).zip rows).foldl stepAfter VtkState.init).np⟩ : H5 K) hpos hn (by
      refine ⟨by rw [List.length_map, hzl], ?_⟩
      intro g hg
      obtain ⟨f, _, rfl⟩ := List.mem_map.1 (List.mem_of_mem_take hg)
      exact ⟨rfl, rfl, rfl, rfl, rfl, rfl, rfl⟩) dflt ts hts
  refine ⟨l, e, hl.imp ?_⟩
  intro t x hx
  obtain ⟨g, h1, h2⟩ := hx
  dsimp only at h1
  rw [List.getElem?_map] at h1
  obtain ⟨⟨time, rs⟩, h3, rfl⟩ := Option.map_eq_some_iff.1 h1
  rw [List.getElem?_zip_eq_some] at h3
  obtain ⟨ha, hb⟩ := h3
  rw [List.getElem?_take] at ha
  obtain ⟨k1, k2, k3, k4, k5, k6, k7, -⟩ := h2
  refine ⟨time, rs, ?_, hb, ?_⟩
  · split_ifs at ha
    exact ha
  · dsimp only [stepGroup] at k1 k2 k3 k4 k5 k6 k7
    simp only [Option.some.injEq] at k1 k2 k3 k4 k5 k6 k7
    exact ⟨k1.symm, k5.symm, k2.symm, k3.symm, k4.symm, k7.symm, k6.symm⟩

/-- **C70, refusal.** With any other number of columns, or with fewer times than files, the conversion panics. -/
theorem C70_reject (cols : List ℕ) (times : List (F K)) (files : List (List (List (F K))))
    (h : ¬ (cols.length = 4 ∨ cols.length = 7) ∨ times.length < files.length) : ∃ e, fileConvert cols times files = .error e := by
  unfold fileConvert
  by_cases hc : cols.length = 4 ∨ cols.length = 7
  · rw [if_neg (by intro h; exact h hc)]
    have hlt : times.length < files.length := by
      rcases h with h | h
      · exact absurd hc h
      · exact h
    suffices ∀ (k : ℕ) (s : VtkState K), times.length < files.length + k → k ≤ times.length → ∃ e, (files.zipIdx k).foldlM (fileStep cols times) s = .error e by
      obtain ⟨e, he⟩ := this 0 VtkState.init (by omega) (by omega)
      rw [he]
      exact ⟨e, rfl⟩
    clear h hlt
    induction files with
    | nil => intro k s h1 h2; simp at h1; omega
    | cons raw files ih =>
      intro k s h1 h2
      rw [List.zipIdx_cons, List.foldlM_cons]
      by_cases hk : k = times.length
      · have : at' times k = .error .index := by
          unfold at'
          rw [List.getElem?_eq_none (by omega)]
        unfold fileStep
        dsimp only
        rw [this]
        exact ⟨_, rfl⟩
      · cases hs : fileStep cols times s (raw, k) with
        | error e => exact ⟨e, rfl⟩
        | ok s' =>
          rw [run_bind_ok]
          exact ih (k + 1) s' (by simp at h1; omega) (by omega)
  · rw [if_pos hc]
    exact ⟨_, rfl⟩

/-! ### C71 -/

/-- **C71, partial.** What is recorded about the converted files: the number of files, their times in order, a time range from 0 to the largest of 0 and the
times, the mean velocities and mean speed over all particles of all files, limits as in C63. The number of particles is that of the last file. -/
theorem C71_recorded_partial (cols : List ℕ) (hc : cols.length = 4 ∨ cols.length = 7) (times : List (F K)) (files : List (List (List (F K))))
    (rows : List (List (StepRow K))) (h : List.Forall₂ (List.Forall₂ (StepRowOf cols)) files rows) (ht : files.length = times.length) (out : TOut K)
    (ho : fileConvert cols times files = .ok out) :
    out.attrs.n = files.length ∧ out.attrs.timeArray = times ∧ out.attrs.time.1 = 0 ∧
    (∀ t ∈ times, t ≠ nan → t ≤ out.attrs.time.2) ∧ (out.attrs.time.2 = 0 ∨ out.attrs.time.2 ∈ times) ∧
    (∀ rs, rows.getLast? = some rs → out.attrs.np = rs.length) ∧
    (∀ i, (out.attrs.vel i).2.1 = (rows.flatten.map fun r => r.v i).foldl (· + ·) 0 / F.ofNat rows.flatten.length) ∧
    out.attrs.mag.2.1 = (rows.flatten.map fun r => speed r.v).foldl (· + ·) 0 / F.ofNat rows.flatten.length ∧
    (∀ i, ScanOf (rows.flatten.map fun r => r.p i) (out.attrs.dims i)) ∧
    (∀ i, ScanOf (rows.flatten.map fun r => r.v i) ⟨(out.attrs.vel i).1, (out.attrs.vel i).2.2⟩) ∧
    ScanOf (rows.flatten.map fun r => speed r.v) ⟨out.attrs.mag.1, out.attrs.mag.2.2⟩ := by
  have hlen := h.length_eq
  rw [fileConvert_eq cols hc times files rows h (le_of_eq ht), ht, List.take_length] at ho
  cases ho
  obtain ⟨-, h2, h3, h4, h5, h6, h7, h8, -⟩ := stepAfter_fields (times.zip rows) VtkState.init
  have hfst : (times.zip rows).map Prod.fst = times := List.map_fst_zip (by omega)
  have hsnd : (times.zip rows).map Prod.snd = rows := List.map_snd_zip (by omega)
  have hflat : (times.zip rows).flatMap Prod.snd = rows.flatten := by rw [List.flatMap, hsnd]
  rw [hflat] at h2 h3 h4
  rw [hfst] at h5 h7
  obtain ⟨v1, v2, v3, v4⟩ := velStats_fold (rows.flatten.map StepRow.v) VelStats.init
  have ec : ((times.zip rows).foldl stepAfter VtkState.init).count = rows.flatten.length := by rw [h4]; simp [VtkState.init]
  have ei : (VtkState.init : VtkState K).vel = VelStats.init := rfl
  rw [ei] at h3
  have hz : (0 : F K) ≠ nan := by rw [F.zero_def]; simp
  obtain ⟨-, m2, m3⟩ := fold_max times (0 : F K) hz
  refine ⟨ht.symm, h5, h6, ?_, ?_, ?_, ?_, ?_, ?_, ?_, ?_⟩
  · dsimp only; rw [h7]; exact m2
  · dsimp only; rw [h7]; exact m3
  · intro rs hrs
    dsimp only
    rw [h8]
    have : ((times.zip rows).map Prod.snd).getLast? = some rs := by rw [hsnd]; exact hrs
    rw [List.getLast?_map, Option.map_eq_some_iff] at this
    obtain ⟨x, hx, e⟩ := this
    rw [hx]
    simp [e]
  · intro i
    dsimp only [VelStats.attr]
    rw [h3, ec, v2, List.map_map]; rfl
  · dsimp only [VelStats.magAttr]
    rw [h3, ec, v4, List.map_map]; rfl
  · intro i
    dsimp only
    rw [h2, seePos_fold, List.map_map]
    exact scan_init _
  · intro i
    dsimp only [VelStats.attr]
    rw [h3, v1, List.map_map]
    exact scan_init _
  · dsimp only [VelStats.magAttr]
    rw [h3, v3, List.map_map]
    exact scan_init _

/-- Two files: two particles at time 1, one at time 2. -/
def twoFiles : List (List (List (F K))) := [[[1, 0, 0, 0, 0, 0, 0], [0, 1, 1, 1, 0, 0, 0]], [[1, 0, 0, 0, 0, 0, 0]]]

/-- The particles of these files. -/
def twoFilesRows : List (List (StepRow K)) := [[⟨1, fun _ => 0, fun _ => 0⟩, ⟨0, fun _ => 1, fun _ => 0⟩], [⟨1, fun _ => 0, fun _ => 0⟩]]

theorem twoFiles_rows : List.Forall₂ (List.Forall₂ (StepRowOf [0, 1, 2, 3, 4, 5, 6])) (twoFiles : List (List (List (F K)))) twoFilesRows := by
  refine .cons (.cons ⟨rfl, fun j => ?_, fun _ j => ?_, fun h => by simp at h⟩ (.cons ⟨rfl, fun j => ?_, fun _ j => ?_, fun h => by simp at h⟩ .nil))
    (.cons (.cons ⟨rfl, fun j => ?_, fun _ j => ?_, fun h => by simp at h⟩ .nil) .nil) <;> fin_cases j <;> rfl

/-- **C71 refuted in general:** for these two files the recorded number of particles is 1, though the first file has two. -/
theorem C71_false [LawfulArith K] : ∃ (cols : List ℕ) (times : List (F K)) (files : List (List (List (F K)))) (rows : List (List (StepRow K))) (out : TOut K),
    List.Forall₂ (List.Forall₂ (StepRowOf cols)) files rows ∧ files.length = times.length ∧ fileConvert cols times files = .ok out ∧
    ∃ rs ∈ rows, out.attrs.np < rs.length := by
  obtain ⟨out, e, -⟩ := C70_files [0, 1, 2, 3, 4, 5, 6] (Or.inr rfl) [(1 : F K), fin 2] twoFiles twoFilesRows twoFiles_rows (by simp [twoFiles])
    (by simp [twoFiles]) (by norm_num [twoFiles])
  refine ⟨_, _, _, _, out, twoFiles_rows, rfl, e, ?_⟩
  obtain ⟨-, -, -, -, -, h, -⟩ := C71_recorded_partial _ (Or.inr rfl) _ twoFiles twoFilesRows twoFiles_rows rfl out e
  refine ⟨_, List.mem_cons_self, ?_⟩
  rw [h _ rfl]
  simp

end Up4
