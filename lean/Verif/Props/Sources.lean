import Verif.Props.Whole

set_option linter.unusedSectionVars false

/-! # C151: the same particles give the same fields, whatever file they come from -/

namespace Up4
open F

variable {K : Type} [Field K] [LinearOrder K] [IsStrictOrderedRing K] [FloorRing K] [Arith K]

/-! ### One CSV file per timestep, without conditions on the calls -/

/-- The file `csv_multi_files` writes is sound if all files have the same number of particles and the times are finite and do not decrease. -/
theorem steps_sound [LawfulArith K] (cols : List ℕ) (hc : cols.length = 4 ∨ cols.length = 7) (times : List (F K)) (files : List (List (List (F K))))
    (rows : List (List (StepRow K))) (h : List.Forall₂ (List.Forall₂ (StepRowOf cols)) files rows) (ht : files.length = times.length)
    (hf : files ≠ []) (hn : files.length ≤ 2 ^ 50) (np : ℕ) (hcount : files.length * np ≤ 2 ^ 52) (hlen : ∀ rs ∈ rows, rs.length = np)
    (hfin : ∀ x ∈ times, ∃ y : K, x = fin y) (hs : times.Pairwise fun a b => a ≤ b) (out : TOut K) (ho : fileConvert cols times files = .ok out) :
    out.onDisk.Sound ∧ out.onDisk.n = files.length := by
  obtain ⟨c1, c2, _, _, _, c6, _⟩ := C71_recorded_partial cols hc times files rows h ht out ho
  have hl := h.length_eq
  have hpos := List.length_pos_iff.2 hf
  have en : out.onDisk.n = files.length := c1
  have hgr : out.groups = (times.zip rows).map fun x => stepGroup x.1 x.2 := by
    rw [fileConvert_eq cols hc times files rows h ht.le, ht, List.take_length] at ho
    cases ho
    obtain ⟨hg, -⟩ := stepAfter_fields (times.zip rows) VtkState.init
    exact hg
  have hzl : (times.zip rows).length = files.length := by simp; omega
  have step : ∀ k (hk : k < (times.zip rows).length), IsStep (times.zip rows)[k].1 (times.zip rows)[k].2 (out.onDisk.file k) ∧ (out.onDisk.file k).Wf := by
    intro k hk
    obtain ⟨ts, e, hh⟩ := tRead_ok out.groups k (stepGroup (times.zip rows)[k].1 (times.zip rows)[k].2)
      (by rw [hgr, List.getElem?_map, List.getElem?_eq_getElem hk]; rfl) ⟨rfl, rfl, rfl, rfl, rfl, rfl, rfl⟩
    have : out.onDisk.file k = ts := by
      change (tRead out.groups k).toOption.getD Timestep.default = ts
      rw [e]; rfl
    rw [this]
    obtain ⟨k1, k2, k3, k4, k5, k6, k7, _, k9⟩ := hh
    simp only [stepGroup, Option.some.injEq] at k1 k2 k3 k4 k5 k6 k7
    have k9 := (k9 rfl).1
    refine ⟨⟨k1.symm, k5.symm, k2.symm, k3.symm, k4.symm, k7.symm, k6.symm⟩, ?_⟩
    unfold Timestep.Wf
    rw [k9, ← k2, ← k3, ← k4, ← k5, ← k6, ← k7]
    simp
  have hpw : times.Pairwise fun a b => ¬ b < a := List.Pairwise.imp (fun hab => not_lt_of_le' hab) hs
  obtain ⟨τ, e1, e2, e3⟩ := time_axis times hfin hpw
  rw [← ht] at e1 e3
  refine ⟨⟨Or.inl rfl, by rw [en]; omega, by rw [en]; exact hn, fun t h' => ?_, ⟨τ, ?_, fun t h' => ?_, ?_⟩, np, ?_, by rw [en]; exact hcount, fun t h' => ?_⟩, en⟩
  · exact (step t (by rw [hzl, ← en]; exact h')).2
  · change out.attrs.timeArray = _
    rw [c2, en]; exact e1
  · have h2 : t < (times.zip rows).length := by rw [hzl, ← en]; exact h'
    rw [(step t h2).1.1, List.getElem_zip]
    exact e2 t (by rw [← ht, ← en]; exact h')
  · rw [en]; exact e3
  · have hr : rows ≠ [] := by
      intro e; rw [e] at hl; simp at hl; exact hf hl
    have := c6 _ (List.getLast?_eq_some_getLast hr)
    change np ≤ out.attrs.np + 1
    rw [this, hlen _ (List.getLast_mem hr)]
    omega
  · have h2 : t < (times.zip rows).length := by rw [hzl, ← en]; exact h'
    rw [(step t h2).1.2.2.1, List.length_map, List.getElem_zip]
    exact hlen _ (List.getElem_mem _)

theorem flatten_length_of {α : Type} (np : ℕ) (l : List (List α)) (h : ∀ x ∈ l, x.length = np) : l.flatten.length = l.length * np := by
  induction l with
  | nil => simp
  | cons f l ih =>
    rw [List.flatten_cons, List.length_append, ih fun g hg => h g (List.mem_cons_of_mem _ hg), h f List.mem_cons_self, List.length_cons, Nat.succ_mul, add_comm]

/-- **C123 for CSV files of the timesteps, whole.** Files with the same number of particles and finite times that do not decrease: the conversion succeeds, and after any
sequence of calls with sensible arguments (all of which answer) the fields are those of the particles in the files with times in the window. -/
theorem C123_files_whole [LawfulArith K] (cols : List ℕ) (hc : cols.length = 4 ∨ cols.length = 7) (times : List (F K)) (files : List (List (List (F K))))
    (rows : List (List (StepRow K))) (h : List.Forall₂ (List.Forall₂ (StepRowOf cols)) files rows) (ht : files.length = times.length)
    (hf : files ≠ []) (hn : files.length ≤ 2 ^ 50) (np : ℕ) (hcount : files.length * np ≤ 2 ^ 52) (hlen : ∀ rs ∈ rows, rs.length = np)
    (hfin : ∀ x ∈ times, ∃ y : K, x = fin y) (hs : times.Pairwise fun a b => a ≤ b) :
    ∃ out, fileConvert cols times files = .ok out ∧ ∀ (p : Profile) (cs : List (Call K)), (∀ c ∈ cs, c.Askable p out.onDisk) →
      (∃ s as, out.onDisk.session p cs = .ok (s, as) ∧ as.length = cs.length) ∧
      FieldsOf p (fun c => out.onDisk.answer p (cs ++ [c])) ((stepsIn (windowOf cs) times rows).map fun r => (r.p, r.v)) := by
  have e := fileConvert_eq cols hc times files rows h ht.le
  refine ⟨_, e, fun p cs hcs => ?_⟩
  obtain ⟨hsound, en⟩ := steps_sound cols hc times files rows h ht hf hn np hcount hlen hfin hs _ e
  obtain ⟨s, as, r, hl⟩ := C136_answers_partial p _ hsound cs hcs
  refine ⟨⟨s, as, r, hl⟩, C123_files ⟨hc, h, hf, ht.le, hn, e, fun c hc' => ?_, ⟨_, r⟩⟩ ?_⟩
  · rw [← en]
    exact askable_fits (hcs c hc')
  · rw [flatten_length_of np rows hlen, ← h.length_eq]
    exact hcount.trans (Nat.pow_le_pow_right (by norm_num) (by norm_num))

/-! ### Specification -/

/-- The two objects give the same fields: numberfield in every arithmetic; velocityfield, vectorfield and granular temperature, on fresh grids, in exact arithmetic. -/
structure AgreeOn [LawfulArith K] (p : Profile) (ask ask' : Call K → Run (Option (Answer K))) (vel : Prop) : Prop where
  number : ∀ g : Grid K, g.Fillable p → ∃ a b : Grid K, ask (.numberfield g) = .ok (some (.grid a)) ∧ ask' (.numberfield g) = .ok (some (.grid b)) ∧
    a.geom = b.geom ∧ ∀ c, a.st.data.get c = b.st.data.get c
  velocity : ExactArith K → ∀ g : Grid K, g.Fillable p → (∀ c, g.st.weight.get c = 0) → ∀ mode ∈ ["absolute", "x", "y", "z"], ∀ lo hi : K,
    ∃ a b : Grid K, ask (.velocityfield g mode (fin lo) (fin hi)) = .ok (some (.grid a)) ∧
      ask' (.velocityfield g mode (fin lo) (fin hi)) = .ok (some (.grid b)) ∧
      ∀ c, InB g.geom.cells c → a.st.data.get c = b.st.data.get c ∧ a.st.weight.get c = b.st.weight.get c
  vector : ExactArith K → vel → ∀ g : Grid K, g.Fillable p → (∀ c, g.st.weight.get c = 0 ∧ g.st.data.get c = 0) → g.geom.isCylindrical = false →
    ∃ a b : VecGrid K, ask (.vectorfield g) = .ok (some (.vec a)) ∧ ask' (.vectorfield g) = .ok (some (.vec b)) ∧
      ∀ i c, InB g.geom.cells c → (a.comp i).st.data.get c = (b.comp i).st.data.get c ∧ (a.comp i).st.weight.get c = (b.comp i).st.weight.get c
  granular : ExactArith K → vel → ∀ g : Grid K, g.Fillable p → (∀ c, g.st.data.get c = 0) → ∀ mode ∈ ["x", "y", "z", "xyz"],
    ∃ a b : Grid K, ask (.granularTemperature g mode) = .ok (some (.grid a)) ∧ ask' (.granularTemperature g mode) = .ok (some (.grid b)) ∧
      ∀ c, InB g.geom.cells c → a.st.data.get c = b.st.data.get c

/-- Two lists of samples in different orders have the same fields. -/
theorem agree_of_perm [LawfulArith K] {p : Profile} {ask ask' : Call K → Run (Option (Answer K))} {l l' : List (Pos K × (Fin 3 → F K))}
    (h : FieldsOf p ask l) (h' : FieldsOf p ask' l') (hp : l.Perm l') : AgreeOn p ask ask' (FiniteVel l) := by
  have fv : FiniteVel l → FiniteVel l' := fun hv x hx => hv x (hp.mem_iff.2 hx)
  refine ⟨fun g hg => ?_, fun hx g hg hw mode hm lo hi => ?_, fun hx hv g hg hw hcyl => ?_, fun hx hv g hg hw mode hm => ?_⟩
  · obtain ⟨a, a1, a2, a3⟩ := h.number g hg
    obtain ⟨b, b1, b2, b3⟩ := h'.number g hg
    exact ⟨a, b, a1, b1, a2.trans b2.symm, fun c => by rw [a3, b3, hp.countP_eq]⟩
  · obtain ⟨vcal, hcal⟩ : ∃ vcal : (Fin 3 → F K) → F K, velMode mode = .ok vcal := by
      simp only [List.mem_cons, List.not_mem_nil, or_false] at hm
      rcases hm with rfl | rfl | rfl | rfl <;> exact ⟨_, rfl⟩
    obtain ⟨a, a1, a2⟩ := h.velocity hx g hg hw mode vcal hcal lo hi
    obtain ⟨b, b1, b2⟩ := h'.velocity hx g hg hw mode vcal hcal lo hi
    refine ⟨a, b, a1, b1, fun c hc => ?_⟩
    obtain ⟨u, u1, u2, u3⟩ := a2 c hc
    obtain ⟨v, v1, v2, v3⟩ := b2 c hc
    have huv : u.Perm v := fin_perm (by rw [u1, v1]; exact (hp.filter _).map _)
    rw [u2, u3, v2, v3, mean_perm huv, huv.length_eq]
    exact ⟨rfl, rfl⟩
  · obtain ⟨a, a1, a2⟩ := h.vector hx g hg hw hcyl hv
    obtain ⟨b, b1, b2⟩ := h'.vector hx g hg hw hcyl (fv hv)
    refine ⟨a, b, a1, b1, fun i c hc => ?_⟩
    obtain ⟨u, u1, u2, u3⟩ := a2 i c hc
    obtain ⟨v, v1, v2, v3⟩ := b2 i c hc
    have huv : u.Perm v := fin_perm (by rw [u1, v1]; exact (hp.filter _).map _)
    rw [u2, u3, v2, v3, mean_perm huv, huv.length_eq]
    exact ⟨rfl, rfl⟩
  · have hm' : mode = "x" ∨ mode = "y" ∨ mode = "z" ∨ mode = "xyz" := by simpa using hm
    obtain ⟨a, a1, a2⟩ := h.granular hx g hg hw hv mode hm'
    obtain ⟨b, b1, b2⟩ := h'.granular hx g hg hw (fv hv) mode hm'
    refine ⟨a, b, a1, b1, fun c hc => ?_⟩
    obtain ⟨u, u1, u2, u3⟩ := a2 c hc
    obtain ⟨v, v1, v2, v3⟩ := b2 c hc
    have huv : ∀ i, (u i).Perm (v i) := fun i => fin_perm (by rw [u1 i, v1 i]; exact (hp.filter _).map _)
    by_cases h0 : u 0 = []
    · rw [u2 h0, v2 ((perm_nil_iff (huv 0)).1 h0)]
    · obtain ⟨s, s1, s2, s3⟩ := u3 h0
      obtain ⟨t, t1, t2, t3⟩ := v3 (fun e => h0 ((perm_nil_iff (huv 0)).2 e))
      rw [s1, t1]
      congr 1
      rw [← fluctuation_perm mode huv, ← s3] at t3
      exact (mul_self_inj s2 t2).1 t3.symm

/-! ### C151 -/

/-- The particles of a VTK file and the lines of a CSV file are the same samples (in any order, whatever their ids). -/
def SameSamples (recs : List (Rec K)) (rs : List (StepRow K)) : Prop := (recs.map fun r => (r.pos, r.vel)).Perm (rs.map fun r => (r.p, r.v))

theorem stepsIn_samples (dt : F K) (w : F K × F K) (files : List (ℤ × List (Rec K))) (rows : List (List (StepRow K)))
    (h : List.Forall₂ (fun f rs => SameSamples f.2 rs) files rows) :
    ((inTime dt w files).map fun r => (r.pos, r.vel)).Perm ((stepsIn w (files.map fun f => fileTime dt f.1) rows).map fun r => (r.p, r.v)) := by
  unfold inTime stepsIn
  induction h with
  | nil => simp
  | cons a b ih =>
    rw [List.map_cons, List.zip_cons_cons, List.filter_cons, List.filter_cons]
    dsimp only
    split_ifs
    · rw [List.flatMap_cons, List.flatMap_cons, List.map_append, List.map_append]
      exact a.append ih
    · exact ih

theorem stepsIn_lines (w : F K × F K) (times : List (F K)) (rows rows' : List (List (StepRow K)))
    (h : List.Forall₂ (fun a b : List (StepRow K) => (a.map fun r => (r.p, r.v)).Perm (b.map fun r => (r.p, r.v))) rows rows') :
    ((stepsIn w times rows).map fun r => (r.p, r.v)).Perm ((stepsIn w times rows').map fun r => (r.p, r.v)) := by
  unfold stepsIn
  induction h generalizing times with
  | nil => simp
  | cons a b ih =>
    cases times with
    | nil => simp
    | cons t times =>
      rw [List.zip_cons_cons, List.zip_cons_cons, List.filter_cons, List.filter_cons]
      dsimp only
      split_ifs
      · rw [List.flatMap_cons, List.flatMap_cons, List.map_append, List.map_append]
        exact a.append (ih times)
      · exact ih times

theorem stepsIn_rows (w : F K × F K) (rows : List (Row7 K)) (files : List (List (StepRow K)))
    (h : List.Forall₂ (fun (r : Row7 K) (rs : List (StepRow K)) => ∃ s, rs = [s] ∧ s.p = r.p ∧ s.v = r.v) rows files) :
    ((rowsIn w rows).map fun r => (r.p, r.v)) = ((stepsIn w (rows.map Row7.t) files).map fun r => (r.p, r.v)) := by
  unfold rowsIn stepsIn
  induction h with
  | nil => simp
  | cons a b ih =>
    obtain ⟨s, rfl, e1, e2⟩ := a
    rw [List.map_cons, List.zip_cons_cons, List.filter_cons, List.filter_cons]
    dsimp only
    split_ifs
    · rw [List.flatMap_cons, List.map_append, List.map_cons, ih, List.map_singleton, e1, e2]
      rfl
    · exact ih

/-- **C151 (VTK files and CSV files of the timesteps).** If the VTK files and the CSV files hold the same samples, in whatever order and with whatever ids, and the times are
the same, both conversions succeed and the two objects give the same fields, whatever was called on each (with sensible arguments), if the same window is in force. -/
theorem C151_vtk_files [LawfulArith K] (o : VtkOpts) (ho : o.Full) (dt : F K) (files : List (ℤ × List (Rec K))) (hf : files ≠ [])
    (hn : files.length ≤ 2 ^ 50) (np : ℕ) (hnp : 1 ≤ np) (hcount : files.length * np ≤ 2 ^ 52) (hlen : ∀ f ∈ files, f.2.length = np)
    (hid : ∀ f ∈ files, (f.2.map Rec.num).Nodup) (hfin : ∀ f ∈ files, ∃ y : K, 0 ≤ y ∧ fileTime dt f.1 = fin y)
    (hs : files.Pairwise fun a b => fileTime dt a.1 ≤ fileTime dt b.1)
    (cols : List ℕ) (hc : cols.length = 4 ∨ cols.length = 7) (tables : List (List (List (F K)))) (rows : List (List (StepRow K)))
    (h : List.Forall₂ (List.Forall₂ (StepRowOf cols)) tables rows) (hsame : List.Forall₂ (fun f rs => SameSamples f.2 rs) files rows) :
    ∃ a b, vtkConvert o dt (files.map fun f => vtkOf f.1 f.2) = .ok a ∧ fileConvert cols (files.map fun f => fileTime dt f.1) tables = .ok b ∧
      ∀ (p : Profile) (cs cs' : List (Call K)), (∀ c ∈ cs, c.Askable p a.onDisk) → (∀ c ∈ cs', c.Askable p b.onDisk) → windowOf cs = windowOf cs' →
        AgreeOn p (fun c => a.onDisk.answer p (cs ++ [c])) (fun c => b.onDisk.answer p (cs' ++ [c]))
          (FiniteVel ((inTime dt (windowOf cs) files).map fun r => (r.pos, r.vel))) := by
  obtain ⟨a, ea, ha⟩ := C123_vtk_whole o ho dt files hf hn np hnp hcount hlen hid hfin hs
  have hl := hsame.length_eq
  have hl' := h.length_eq
  obtain ⟨b, eb, hb⟩ := C123_files_whole cols hc (files.map fun f => fileTime dt f.1) tables rows h (by rw [List.length_map]; omega)
    (by intro e; rw [e] at hl'; rw [← hl'] at hl; exact hf (List.length_eq_zero_iff.1 hl)) (by omega) np (by rw [hl', ← hl]; exact hcount)
    (by
      intro rs hrs
      obtain ⟨k, hk, rfl⟩ := List.getElem_of_mem hrs
      have := (List.forall₂_iff_get.1 hsame).2 k (by omega) hk
      have := this.length_eq
      simp only [List.length_map, List.get_eq_getElem] at this
      rw [← this]
      exact hlen _ (List.getElem_mem _))
    (by
      intro x hx
      obtain ⟨f, hf', rfl⟩ := List.mem_map.1 hx
      obtain ⟨y, _, hy⟩ := hfin f hf'
      exact ⟨y, hy⟩) (by rw [List.pairwise_map]; exact hs)
  refine ⟨a, b, ea, eb, fun p cs cs' h1 h2 hw => ?_⟩
  have f1 := (ha p cs h1).2
  have f2 := (hb p cs' h2).2
  rw [← hw] at f2
  exact agree_of_perm f1 f2 (stepsIn_samples dt _ files rows hsame)

/-- **C151 (the order of the lines in CSV files of the timesteps, and ids).** -/
theorem C151_lines [LawfulArith K] (cols cols' : List ℕ) (hc : cols.length = 4 ∨ cols.length = 7) (hc' : cols'.length = 4 ∨ cols'.length = 7)
    (times : List (F K)) (files files' : List (List (List (F K)))) (rows rows' : List (List (StepRow K)))
    (h : List.Forall₂ (List.Forall₂ (StepRowOf cols)) files rows) (h' : List.Forall₂ (List.Forall₂ (StepRowOf cols')) files' rows')
    (hsame : List.Forall₂ (fun a b : List (StepRow K) => (a.map fun r => (r.p, r.v)).Perm (b.map fun r => (r.p, r.v))) rows rows')
    (ht : files.length = times.length) (hf : files ≠ []) (hn : files.length ≤ 2 ^ 50) (np : ℕ) (hcount : files.length * np ≤ 2 ^ 52)
    (hlen : ∀ rs ∈ rows, rs.length = np) (hfin : ∀ x ∈ times, ∃ y : K, x = fin y) (hs : times.Pairwise fun a b => a ≤ b) :
    ∃ a b, fileConvert cols times files = .ok a ∧ fileConvert cols' times files' = .ok b ∧
      ∀ (p : Profile) (cs cs' : List (Call K)), (∀ c ∈ cs, c.Askable p a.onDisk) → (∀ c ∈ cs', c.Askable p b.onDisk) → windowOf cs = windowOf cs' →
        AgreeOn p (fun c => a.onDisk.answer p (cs ++ [c])) (fun c => b.onDisk.answer p (cs' ++ [c]))
          (FiniteVel ((stepsIn (windowOf cs) times rows).map fun r => (r.p, r.v))) := by
  obtain ⟨a, ea, ha⟩ := C123_files_whole cols hc times files rows h ht hf hn np hcount hlen hfin hs
  have l1 := h.length_eq
  have l2 := hsame.length_eq
  have l3 := h'.length_eq
  obtain ⟨b, eb, hb⟩ := C123_files_whole cols' hc' times files' rows' h' (by omega)
    (by intro e; rw [e] at l3; rw [← l3] at l2; exact hf (List.length_eq_zero_iff.1 (l1.trans l2))) (by omega) np (by rw [l3, ← l2, ← l1]; exact hcount)
    (by
      intro rs hrs
      obtain ⟨k, hk, rfl⟩ := List.getElem_of_mem hrs
      have := (List.forall₂_iff_get.1 hsame).2 k (by omega) hk
      have := this.length_eq
      simp only [List.length_map, List.get_eq_getElem] at this
      rw [← this]
      exact hlen _ (List.getElem_mem _)) hfin hs
  refine ⟨a, b, ea, eb, fun p cs cs' h1 h2 hw => ?_⟩
  have f1 := (ha p cs h1).2
  have f2 := (hb p cs' h2).2
  rw [← hw] at f2
  exact agree_of_perm f1 f2 (stepsIn_lines _ times rows rows' hsame)

/-- **C151 (a trajectory in one CSV file, and in one CSV file per timestep).** -/
theorem C151_trajectory [LawfulArith K] (lib : FitLib K) (o : CsvOpts K) (hv : o.vel = false) (hi : o.interp = false) (h7 : o.cols.length = 7)
    (raw : List (List (F K))) (rows : List (Row7 K)) (hrow : List.Forall₂ (RowOf o.cols) raw rows) (hs : rows.Pairwise fun a b => a.t < b.t)
    (hp : ∀ r ∈ rows, 0 < r.t) (hfin : ∀ r ∈ rows, ∃ y : K, r.t = fin y) (r0 : Row7 K) (h0 : rows.head? = some r0) (hv0 : r0.v 2 ≠ nan)
    (hlen : rows.length ≤ 2 ^ 50)
    (cols : List ℕ) (hc : cols.length = 4 ∨ cols.length = 7) (tables : List (List (List (F K)))) (steps : List (List (StepRow K)))
    (h : List.Forall₂ (List.Forall₂ (StepRowOf cols)) tables steps)
    (hsame : List.Forall₂ (fun (r : Row7 K) (rs : List (StepRow K)) => ∃ s, rs = [s] ∧ s.p = r.p ∧ s.v = r.v) rows steps) :
    ∃ a b, csvConvert lib o raw = .ok a ∧ fileConvert cols (rows.map Row7.t) tables = .ok b ∧
      ∀ (p : Profile) (cs cs' : List (Call K)), (∀ c ∈ cs, c.Askable p (a.onDisk p)) → (∀ c ∈ cs', c.Askable p b.onDisk) → windowOf cs = windowOf cs' →
        AgreeOn p (fun c => (a.onDisk p).answer p (cs ++ [c])) (fun c => b.onDisk.answer p (cs' ++ [c]))
          (FiniteVel ((rowsIn (windowOf cs) rows).map fun r => (r.p, r.v))) := by
  obtain ⟨a, ea, ha⟩ := C123_csv_whole lib o hv hi h7 raw rows hrow hs hp hfin r0 h0 hv0 hlen
  have hl := hsame.length_eq
  have hl' := h.length_eq
  have hne : rows ≠ [] := by
    intro e; rw [e] at h0; simp at h0
  obtain ⟨b, eb, hb⟩ := C123_files_whole cols hc (rows.map Row7.t) tables steps h (by rw [List.length_map]; omega)
    (by intro e; rw [e] at hl'; rw [← hl'] at hl; exact hne (List.length_eq_zero_iff.1 hl)) (by omega) 1
    (by rw [hl', ← hl, mul_one]; exact hlen.trans (Nat.pow_le_pow_right (by norm_num) (by norm_num)))
    (by
      intro rs hrs
      obtain ⟨k, hk, rfl⟩ := List.getElem_of_mem hrs
      obtain ⟨s, e, -⟩ := (List.forall₂_iff_get.1 hsame).2 k (by omega) hk
      rw [List.get_eq_getElem] at e
      rw [e]; rfl)
    (by
      intro x hx
      obtain ⟨r, hr, rfl⟩ := List.mem_map.1 hx
      exact hfin r hr) (by rw [List.pairwise_map]; exact hs.imp fun hab => F.le_of_lt' hab)
  refine ⟨a, b, ea, eb, fun p cs cs' h1 h2 hw => ?_⟩
  have f1 := (ha p cs h1).2
  have f2 := (hb p cs' h2).2
  rw [← hw] at f2
  exact agree_of_perm f1 f2 (by rw [stepsIn_rows _ rows steps hsame])

/-! ### Cases -/

/-- Two CSV files with the particles of `goFiles`, in another order and with other ids. -/
noncomputable def goTables : List (List (List (F ℝ))) :=
  [[[fin 7, fin 5, fin 1, fin 1, fin 1, fin 0, fin 0], [fin 8, fin 0, fin 1, fin 1, fin 1, fin 0, fin 0]],
    [[fin 7, fin 6, fin 1, fin 1, fin 3, fin 0, fin 0], [fin 8, fin 1, fin 1, fin 1, fin 3, fin 0, fin 0]]]

noncomputable def goSteps : List (List (StepRow ℝ)) :=
  [[⟨fin 7, ![fin 5, fin 1, fin 1], ![fin 1, fin 0, fin 0]⟩, ⟨fin 8, ![fin 0, fin 1, fin 1], ![fin 1, fin 0, fin 0]⟩],
    [⟨fin 7, ![fin 6, fin 1, fin 1], ![fin 3, fin 0, fin 0]⟩, ⟨fin 8, ![fin 1, fin 1, fin 1], ![fin 3, fin 0, fin 0]⟩]]

theorem goTables_steps : List.Forall₂ (List.Forall₂ (StepRowOf [0, 1, 2, 3, 4, 5, 6])) goTables goSteps := by
  have : ∀ i x y z u v w : ℝ, StepRowOf [0, 1, 2, 3, 4, 5, 6] [fin i, fin x, fin y, fin z, fin u, fin v, fin w] ⟨fin i, ![fin x, fin y, fin z], ![fin u, fin v, fin w]⟩ := by
    intro i x y z u v w
    exact ⟨rfl, fun j => by fin_cases j <;> rfl, fun _ j => by fin_cases j <;> rfl, fun h => by simp at h⟩
  exact .cons (.cons (this ..) (.cons (this ..) .nil)) (.cons (.cons (this ..) (.cons (this ..) .nil)) .nil)

theorem goSteps_same : List.Forall₂ (fun (f : ℤ × List (Rec ℝ)) rs => SameSamples f.2 rs) goFiles goSteps := by
  unfold goFiles goSteps SameSamples goRec
  exact .cons (List.Perm.swap _ _ _) (.cons (List.Perm.refl _) .nil)

/-- Case for `C151_vtk_files`: the number field of two VTK files after an average was asked for, and of two CSV files after a read ahead. -/
example (p : Profile) : ∃ (a b : TOut ℝ), vtkConvert fullOpts (fin 1 : F ℝ) (goFiles.map fun f => vtkOf f.1 f.2) = .ok a ∧
    fileConvert [0, 1, 2, 3, 4, 5, 6] (goFiles.map fun f => fileTime (fin 1) f.1) goTables = .ok b ∧
    AgreeOn p (fun c => a.onDisk.answer p ([.meanVelocity] ++ [c])) (fun c => b.onDisk.answer p ([.dispersion soundGrid (fin 1)] ++ [c]))
      (FiniteVel ((inTime (fin 1) (windowOf [Call.meanVelocity]) goFiles).map fun r => (r.pos, r.vel))) := by
  obtain ⟨a, b, ea, eb, h⟩ := C151_vtk_files fullOpts fullOpts_full (fin 1 : F ℝ) goFiles (by simp [goFiles]) (by simp [goFiles]) 2 (by norm_num)
    (by simp [goFiles]) (by simp [goFiles]) (by simp [goFiles, goRec]) (by
      intro f hf
      simp only [goFiles, List.mem_cons, List.not_mem_nil, or_false] at hf
      rcases hf with rfl | rfl
      · exact ⟨0, le_rfl, by rw [goFiles_time]; norm_num⟩
      · exact ⟨1, by norm_num, by rw [goFiles_time]; norm_num⟩) (by
      simp only [goFiles, List.pairwise_cons, List.mem_cons, List.not_mem_nil, or_false, forall_eq, goFiles_time, F.le_fin]
      norm_num) [0, 1, 2, 3, 4, 5, 6] (Or.inr rfl) goTables goSteps goTables_steps goSteps_same
  refine ⟨a, b, ea, eb, h p [.meanVelocity] [.dispersion soundGrid (fin 1)] ?_ ?_ rfl⟩
  · intro c hc
    rw [List.mem_singleton] at hc
    rw [hc]; trivial
  · intro c hc
    rw [List.mem_singleton] at hc
    rw [hc]
    exact ⟨soundGrid_fit p, Or.inl rfl, 1, rfl⟩

/-- Case for `C151_lines` and `C123_files_whole`: the same two files and the files with their lines swapped. -/
example (p : Profile) : ∃ (a b : TOut ℝ), fileConvert [0, 1, 2, 3, 4, 5, 6] [fin 1, fin 2] goTables = .ok a ∧
    fileConvert [0, 1, 2, 3, 4, 5, 6] [fin 1, fin 2] (goTables.map List.reverse) = .ok b ∧
    AgreeOn p (fun c => a.onDisk.answer p ([] ++ [c])) (fun c => b.onDisk.answer p ([.meanVelocity] ++ [c]))
      (FiniteVel ((stepsIn (windowOf ([] : List (Call ℝ))) [fin 1, fin 2] goSteps).map fun r => (r.p, r.v))) := by
  obtain ⟨a, b, ea, eb, h⟩ := C151_lines [0, 1, 2, 3, 4, 5, 6] [0, 1, 2, 3, 4, 5, 6] (Or.inr rfl) (Or.inr rfl) [fin 1, fin 2] goTables
    (goTables.map List.reverse) goSteps (goSteps.map List.reverse) goTables_steps (by
      obtain _ | ⟨_ | ⟨a1, _ | ⟨a2, _⟩⟩, _ | ⟨_ | ⟨b1, _ | ⟨b2, _⟩⟩, _⟩⟩ := goTables_steps
      exact .cons (.cons a2 (.cons a1 .nil)) (.cons (.cons b2 (.cons b1 .nil)) .nil))
    (by
      refine .cons (List.Perm.map _ ?_) (.cons (List.Perm.map _ ?_) .nil) <;> exact (List.reverse_perm _).symm)
    rfl (by simp [goTables]) (by simp [goTables]) 2 (by simp [goTables]) (by simp [goSteps]) (by
      intro x hx
      simp only [List.mem_cons, List.not_mem_nil, or_false] at hx
      rcases hx with rfl | rfl
      · exact ⟨1, rfl⟩
      · exact ⟨2, rfl⟩) (by
      simp only [List.pairwise_cons, List.mem_singleton, forall_eq, List.not_mem_nil, IsEmpty.forall_iff, implies_true, List.Pairwise.nil, and_true, F.le_fin]
      norm_num)
  refine ⟨a, b, ea, eb, h p [] [.meanVelocity] (by simp) ?_ rfl⟩
  intro c hc
  rw [List.mem_singleton] at hc
  rw [hc]; trivial

/-- Case for `C151_trajectory`: a trajectory of two rows, and two files of one line. -/
example (lib : FitLib ℝ) (radius : F ℝ) (p : Profile) :
    let o : CsvOpts ℝ := { cols := [0, 1, 2, 3, 4, 5, 6], vel := false, interp := false, radius := radius, sampling := 9 }
    ∃ (a : POut ℝ) (b : TOut ℝ), csvConvert lib o [[fin 1, 0, 0, 0, 0, 0, 0], [fin 3, 1, 1, 1, 0, 0, 0]] = .ok a ∧
      fileConvert [0, 1, 2, 3, 4, 5, 6] [fin 1, fin 3] [[[fin 4, 0, 0, 0, 0, 0, 0]], [[fin 5, 1, 1, 1, 0, 0, 0]]] = .ok b ∧
      AgreeOn p (fun c => (a.onDisk p).answer p ([] ++ [c])) (fun c => b.onDisk.answer p ([] ++ [c]))
        (FiniteVel ((rowsIn (windowOf ([] : List (Call ℝ))) [⟨fin 1, fun _ => 0, fun _ => 0⟩, ⟨fin 3, fun _ => 1, fun _ => 0⟩]).map fun r => (r.p, r.v))) := by
  intro o
  have hraw : List.Forall₂ (RowOf (K := ℝ) o.cols) [[fin 1, 0, 0, 0, 0, 0, 0], [fin 3, 1, 1, 1, 0, 0, 0]]
      [⟨fin 1, fun _ => 0, fun _ => 0⟩, ⟨fin 3, fun _ => 1, fun _ => 0⟩] := by
    refine .cons ⟨rfl, fun j => ?_, fun j => ?_⟩ (.cons ⟨rfl, fun j => ?_, fun j => ?_⟩ .nil) <;> fin_cases j <;> rfl
  have hst : ∀ (i x u : F ℝ), StepRowOf [0, 1, 2, 3, 4, 5, 6] [i, x, x, x, u, u, u] ⟨i, fun _ => x, fun _ => u⟩ := by
    intro i x u
    exact ⟨rfl, fun j => by fin_cases j <;> rfl, fun _ j => by fin_cases j <;> rfl, fun h => by simp at h⟩
  obtain ⟨a, b, ea, eb, h⟩ := C151_trajectory lib o rfl rfl rfl [[fin 1, 0, 0, 0, 0, 0, 0], [fin 3, 1, 1, 1, 0, 0, 0]]
    [⟨fin 1, fun _ => 0, fun _ => 0⟩, ⟨fin 3, fun _ => 1, fun _ => 0⟩] hraw (by
      simp only [List.pairwise_cons, List.mem_singleton, forall_eq, List.not_mem_nil, IsEmpty.forall_iff, implies_true, List.Pairwise.nil, and_true]
      exact (F.lt_fin _ _).2 (by norm_num)) (by
      simp only [List.mem_cons, List.not_mem_nil, or_false, forall_eq_or_imp, forall_eq, F.zero_def]
      exact ⟨(F.lt_fin _ _).2 (by norm_num), (F.lt_fin _ _).2 (by norm_num)⟩) (by
      simp only [List.mem_cons, List.not_mem_nil, or_false, forall_eq_or_imp, forall_eq]
      exact ⟨⟨1, rfl⟩, 3, rfl⟩) _ rfl (by rw [F.zero_def]; simp) (by norm_num) [0, 1, 2, 3, 4, 5, 6] (Or.inr rfl)
    [[[fin 4, 0, 0, 0, 0, 0, 0]], [[fin 5, 1, 1, 1, 0, 0, 0]]] [[⟨fin 4, fun _ => 0, fun _ => 0⟩], [⟨fin 5, fun _ => 1, fun _ => 0⟩]]
    (.cons (.cons (hst ..) .nil) (.cons (.cons (hst ..) .nil) .nil)) (.cons ⟨_, rfl, rfl, rfl⟩ (.cons ⟨_, rfl, rfl, rfl⟩ .nil))
  exact ⟨a, b, ea, eb, h p [] [] (by simp) (by simp) rfl⟩

end Up4
