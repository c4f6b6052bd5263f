import Verif.Props.EndToEnd
import Verif.Props.EndToEndCsv
import Verif.Props.CsvSteps
import Verif.Props.Folder
import Verif.Props.DispatchCases
import Verif.Props.Pooling

set_option linter.unusedSectionVars false

/-!
# C123: the fields of converted files, whatever the route

A file converted from VTK files, from a CSV file of one trajectory or from CSV files for the timesteps is opened and used; the fields then are those of the
particles in the source files.
-/

namespace Up4
open F

variable {K : Type} [Field K] [LinearOrder K] [IsStrictOrderedRing K] [FloorRing K] [Arith K]

/-! ### Specification -/

/-- The fields asked for are those of these particles (positions and velocities): `numberfield` counts them per cell; `velocityfield` is in each cell the mean of the
velocities (component, speed, in-plane speed) of those with a velocity within the limits, with their number as weight; `vectorfield` the mean velocity;
`granular_temperature` the root of the mean squared fluctuation. Cells without particles are NaN (0 in `numberfield`). The last three for fresh grids and in exact
arithmetic; the last two for finite velocities, `vectorfield` on a Cartesian grid. -/
structure FieldsOf [LawfulArith K] (p : Profile) (ask : Call K → Run (Option (Answer K))) (l : List (Pos K × (Fin 3 → F K))) : Prop where
  number : ∀ g : Grid K, g.Fillable p → ∃ g', ask (.numberfield g) = .ok (some (.grid g')) ∧ g'.geom = g.geom ∧
    ∀ c, g'.st.data.get c = fin ((l.countP fun x => inCell p g.geom x.1 c : ℕ) : K)
  velocity : ExactArith K → ∀ g : Grid K, g.Fillable p → (∀ c, g.st.weight.get c = 0) → ∀ (mode : String) (vcal : (Fin 3 → F K) → F K), velMode mode = .ok vcal →
    ∀ lo hi : K, ∃ g', ask (.velocityfield g mode (fin lo) (fin hi)) = .ok (some (.grid g')) ∧ ∀ c, InB g.geom.cells c → ∃ vals : List K,
      vals.map fin = ((l.filter fun x => inCell p g.geom x.1 c && within (fin lo) (fin hi) (vcal x.2)).map fun x => vcal x.2) ∧
      g'.st.weight.get c = fin (vals.length : K) ∧ g'.st.data.get c = if vals = [] then nan else fin (vals.sum / vals.length)
  vector : ExactArith K → ∀ g : Grid K, g.Fillable p → (∀ c, g.st.weight.get c = 0 ∧ g.st.data.get c = 0) → g.geom.isCylindrical = false → FiniteVel l →
    ∃ g', ask (.vectorfield g) = .ok (some (.vec g')) ∧ ∀ a c, InB g.geom.cells c → ∃ vals : List K,
      vals.map fin = ((l.filter fun x => inCell p g.geom x.1 c).map fun x => x.2 a) ∧
      (g'.comp a).st.weight.get c = fin (vals.length : K) ∧ (g'.comp a).st.data.get c = if vals = [] then nan else fin (vals.sum / vals.length)
  granular : ExactArith K → ∀ g : Grid K, g.Fillable p → (∀ c, g.st.data.get c = 0) → FiniteVel l →
    ∀ mode : String, mode = "x" ∨ mode = "y" ∨ mode = "z" ∨ mode = "xyz" →
    ∃ g', ask (.granularTemperature g mode) = .ok (some (.grid g')) ∧ ∀ c, InB g.geom.cells c → ∃ vals : Fin 3 → List K,
      (∀ a, (vals a).map fin = ((l.filter fun x => inCell p g.geom x.1 c).map fun x => x.2 a)) ∧
      (vals 0 = [] → g'.st.data.get c = nan) ∧
      (vals 0 ≠ [] → ∃ T : K, g'.st.data.get c = fin T ∧ 0 ≤ T ∧ T * T = fluctuation mode vals)

/-! ### From what a session sees to the fields -/

/-- From a rearrangement to the list itself. -/
theorem fin_perm_list {u : List K} {m : List (F K)} (h : (u.map fin).Perm m) : ∃ v : List K, v.map fin = m ∧ u.Perm v := by
  have hm : ∀ y ∈ m, ∃ x : K, y = fin x := by
    intro y hy
    obtain ⟨x, _, rfl⟩ := List.mem_map.1 (h.mem_iff.2 hy)
    exact ⟨x, rfl⟩
  have : ∃ v : List K, v.map fin = m := by
    clear h
    induction m with
    | nil => exact ⟨[], rfl⟩
    | cons y m ih =>
      obtain ⟨v, hv⟩ := ih fun z hz => hm z (List.mem_cons_of_mem _ hz)
      obtain ⟨x, rfl⟩ := hm y List.mem_cons_self
      exact ⟨x :: v, by rw [List.map_cons, hv]⟩
  obtain ⟨v, hv⟩ := this
  exact ⟨v, hv, fin_perm (by rw [hv]; exact h)⟩

theorem perm_nil_iff {α : Type} {u v : List α} (h : u.Perm v) : u = [] ↔ v = [] := by
  rw [← List.length_eq_zero_iff, ← List.length_eq_zero_iff, h.length_eq]

theorem mean_perm {u v : List K} (h : u.Perm v) : (if u = [] then (nan : F K) else fin (u.sum / u.length)) = if v = [] then nan else fin (v.sum / v.length) := by
  rw [h.sum_eq, h.length_eq]
  simp only [perm_nil_iff h]

theorem fluctuation_perm (mode : String) {u v : Fin 3 → List K} (h : ∀ a, (u a).Perm (v a)) : fluctuation mode u = fluctuation mode v := by
  unfold fluctuation
  rw [meanSqDev_perm (h 0), meanSqDev_perm (h 1), meanSqDev_perm (h 2)]

/-- A `Data` object that sees these particles answers with their fields. -/
theorem fields_of_seen [LawfulArith K] (p : Profile) (t : PyData K) (hr : Ready t.dm t.sel) (l : List (Pos K × (Fin 3 → F K))) (hp : (t.dm.seen t.sel).Perm l)
    (ask : Call K → Run (Option (Answer K))) (ha : ∀ c, ask c = (t.call p c >>= fun r => pure (some r.2))) : FieldsOf p ask l where
  number := by
    intro g hg
    obtain ⟨d', g', e, _, _, _, e1, _, e2, _⟩ := C34_numberfield p t.dm hr.inv g hg t.sel hr.usable hr.wf hr.few
    refine ⟨g', ?_, e1, fun c => ?_⟩
    · rw [ha]
      change ((Up4.numberfield p t.dm g t.sel >>= fun r => _) >>= _) = _
      rw [e]; rfl
    · rw [e2, seen_count t.sel t.dm fun q => inCell p g.geom q c, hp.countP_eq]
  velocity := by
    intro _ g hg hfresh mode vcal hm lo hi
    obtain ⟨d', g', e, e1⟩ := velocity_cells p g hg hfresh t.dm t.sel hr mode vcal hm lo hi
    refine ⟨g', ?_, fun c hc => ?_⟩
    · rw [ha]
      change ((Up4.velocityfield p t.dm g t.sel mode (fin lo) (fin hi) >>= fun r => _) >>= _) = _
      rw [e]; rfl
    · obtain ⟨u, u1, u2, u3⟩ := e1 c hc
      obtain ⟨v, v1, v2⟩ := fin_perm_list (u := u) (m := ((l.filter fun x => inCell p g.geom x.1 c && within (fin lo) (fin hi) (vcal x.2)).map fun x => vcal x.2)) (by rw [u1]; exact (hp.filter _).map _)
      exact ⟨v, v1, by rw [u2, v2.length_eq], by rw [u3, mean_perm v2]⟩
  vector := by
    intro _ g hg hfresh hcart hv
    obtain ⟨d', g', e, e1⟩ := vector_cells p g hg hfresh hcart t.dm t.sel hr fun x hx => hv x (hp.mem_iff.1 hx)
    refine ⟨g', ?_, fun a c hc => ?_⟩
    · rw [ha]
      change ((Up4.vectorfield p t.dm g t.sel >>= fun r => _) >>= _) = _
      rw [e]; rfl
    · obtain ⟨u, u1, u2, u3⟩ := e1 a c hc
      obtain ⟨v, v1, v2⟩ := fin_perm_list (u := u) (m := ((l.filter fun x => inCell p g.geom x.1 c).map fun x => x.2 a)) (by rw [u1]; exact (hp.filter _).map _)
      exact ⟨v, v1, by rw [u2, v2.length_eq], by rw [u3, mean_perm v2]⟩
  granular := by
    intro _ g hg hfresh hv mode hm
    obtain ⟨v, hv'⟩ := seen_finite (d := t.dm) (sel := t.sel) fun x hx => hv x (hp.mem_iff.1 hx)
    obtain ⟨d', g', e, _, _, _, _, e1⟩ := C40_granular p t.dm hr.inv g hg hfresh t.sel hr.usable hr.wf v (fun x hx _ => hv' x hx) mode hm
    refine ⟨g', ?_, fun c hc => ?_⟩
    · rw [ha]
      change ((Up4.granularTemperature p t.dm g t.sel mode >>= fun r => _) >>= _) = _
      rw [e]; rfl
    · obtain ⟨_, k2, k3⟩ := e1 c hc
      have hk : ∀ a, ∃ w : List K, w.map fin = ((l.filter fun x => inCell p g.geom x.1 c).map fun x => x.2 a) ∧
          (((t.dm.samples t.sel).filter fun x => inCell p g.geom (posOf t.dm.file x) c).map fun x => v x a).Perm w := by
        intro a
        refine fin_perm_list ?_
        have : ((((t.dm.samples t.sel).filter fun x => inCell p g.geom (posOf t.dm.file x) c).map fun x => v x a).map fin) =
            cellVelocities p g.geom c a (t.dm.seen t.sel) := by
          rw [← cellVelocities_seen, List.map_map]
          exact List.map_congr_left fun x hx => (hv' x (List.mem_of_mem_filter hx) a).symm
        rw [this]
        exact (hp.filter _).map _
      choose w w1 w2 using hk
      refine ⟨w, w1, fun h0 => k2 ?_, fun h0 => ?_⟩
      · exact List.map_eq_nil_iff.1 ((perm_nil_iff (w2 0)).2 h0)
      · obtain ⟨T, t1, t2, t3⟩ := k3 fun h => h0 ((perm_nil_iff (w2 0)).1 (by rw [h]; rfl))
        exact ⟨T, t1, t2, by rw [t3, fluctuation_perm mode w2]⟩

/-! ### The routes -/

theorem fields_vtk [LawfulArith K] {o : VtkOpts} {dt : F K} {files : List (ℤ × List (Rec K))} {out : TOut K} {p : Profile} {cs : List (Call K)}
    (h : Sitting o dt files out p cs) (hlen : (files.flatMap Prod.snd).length ≤ 2 ^ 53)
    (l : List (Rec K)) (hl : (inTime dt (windowOf cs) files).Perm l) :
    FieldsOf p (fun c => out.onDisk.answer p (cs ++ [c])) (l.map fun r => (r.pos, r.vel)) := by
  obtain ⟨t, t1, t2, t3, _, _, t6, t7, t8⟩ := h.state
  have hv := holdsVtk o h.full dt files h.given h.nonempty out h.converted
  obtain ⟨rec, r1, r2⟩ := samples_inTime o dt files out.onDisk.file hv.step (windowOf cs)
  have hs : t.dm.samples t.sel = samples (Selector.default.setTime (windowOf cs).1 (windowOf cs).2) out.onDisk.file (List.range files.length) := by
    unfold Dm.samples
    rw [t2, t3, t6]
  refine fields_of_seen p t ⟨t1, t7, by rw [t6]; exact usable_default, ?_⟩ _ ?_ _ t8
  · have := r2.length_eq
    rw [List.length_map] at this
    rw [hs, this]
    exact (inTime_length dt _ files).trans hlen
  · have e : t.dm.seen t.sel = ((samples (Selector.default.setTime (windowOf cs).1 (windowOf cs).2) out.onDisk.file (List.range files.length)).map rec).map
        fun r => (r.pos, r.vel) := by
      unfold Dm.seen
      rw [hs, List.map_map]
      refine List.map_congr_left fun x hx => ?_
      rw [t2, (r1 x hx).1, (r1 x hx).2]
      rfl
    rw [e]
    exact (r2.trans hl).map _

/-- **C123, VTK files.** -/
theorem C123_vtk [LawfulArith K] {o : VtkOpts} {dt : F K} {files : List (ℤ × List (Rec K))} {out : TOut K} {p : Profile} {cs : List (Call K)}
    (h : Sitting o dt files out p cs) (hlen : (files.flatMap Prod.snd).length ≤ 2 ^ 53) :
    FieldsOf p (fun c => out.onDisk.answer p (cs ++ [c])) ((inTime dt (windowOf cs) files).map fun r => (r.pos, r.vel)) :=
  fields_vtk h hlen _ (List.Perm.refl _)

theorem perm_of_map {α β : Type} (f : α → β) {m m' : List β} (h : m.Perm m') : ∀ l : List α, l.map f = m → ∃ l' : List α, l'.Perm l ∧ l'.map f = m' := by
  induction h with
  | nil => exact fun l hl => ⟨l, .refl _, hl⟩
  | cons x _ ih =>
    intro l hl
    obtain ⟨a, l, rfl, rfl, e⟩ := List.map_eq_cons_iff.1 hl
    obtain ⟨l', h1, h2⟩ := ih l e
    exact ⟨a :: l', h1.cons a, by rw [List.map_cons, h2]⟩
  | swap x y m =>
    intro l hl
    obtain ⟨a, l, rfl, rfl, e⟩ := List.map_eq_cons_iff.1 hl
    obtain ⟨b, l, rfl, rfl, e⟩ := List.map_eq_cons_iff.1 e
    exact ⟨b :: a :: l, .swap _ _ _, by simpa using e⟩
  | trans _ _ ih1 ih2 =>
    intro l hl
    obtain ⟨l1, h1, h2⟩ := ih1 l hl
    obtain ⟨l2, h3, h4⟩ := ih2 l1 h2
    exact ⟨l2, h3.trans h1, h4⟩

theorem inTime_perm {dt : F K} {w : F K × F K} {a b : List (ℤ × List (Rec K))} (h : a.Perm b) : (inTime dt w a).Perm (inTime dt w b) := by
  unfold inTime
  exact (h.filter _).flatMap_right _

/-- VTK files were converted and calls on the `Data` object of the result have returned. -/
structure VtkOpened (l : List (Named K)) (out : TOut K) (p : Profile) (cs : List (Call K)) : Prop where
  given : l ≠ []
  count : l.length ≤ 2 ^ 50
  nonempty : ∀ x ∈ l, x.recs ≠ []
  fits : ∀ c ∈ cs, c.Fits l.length
  returned : ∃ r, out.onDisk.session p cs = .ok r
  few : (l.flatMap Named.recs).length ≤ 2 ^ 53

theorem fields_convert [LawfulArith K] (eng : Engine) (disk : String → Option (DataSet K)) (r : Reader) (n : FieldNames) (filter : String) (dt : F K)
    (l l' : List (Named K)) (hp : l'.Perm l) (h : ∀ x ∈ l, x.There eng disk r n filter) {out : TOut K}
    (hout : convertFiles eng disk r n filter dt (l'.map Named.name) = .ok out) {p : Profile} {cs : List (Call K)} (ho : VtkOpened l out p cs) :
    FieldsOf p (fun c => out.onDisk.answer p (cs ++ [c]))
      ((inTime dt (windowOf cs) (l.map fun x => (x.step, x.recs))).map fun r => (r.pos, r.vel)) := by
  rw [convertFiles_eq eng disk r n filter dt l' fun x hx => h x (hp.subset hx)] at hout
  have hs : Sitting (askedFor n) dt (l'.map fun x => (x.step, x.recs)) out p cs := by
    refine ⟨opts_full n, ?_, ?_, ?_, hout, ?_, ho.returned⟩
    · intro h0
      rw [List.map_eq_nil_iff] at h0
      subst h0
      exact ho.given (List.nil_perm.1 hp)
    · rw [List.length_map, hp.length_eq]; exact ho.count
    · intro f hf
      obtain ⟨x, hx, rfl⟩ := List.mem_map.1 hf
      exact ho.nonempty x (hp.subset hx)
    · rw [List.length_map, hp.length_eq]; exact ho.fits
  refine fields_vtk hs ?_ _ (inTime_perm (hp.map _))
  rw [List.flatMap_map]
  refine le_trans (le_of_eq ?_) ho.few
  exact (hp.flatMap_right Named.recs).length_eq

/-- **C123, `Converter.vtk`.** -/
theorem C123_named [LawfulArith K] (eng : Engine) (disk : String → Option (DataSet K)) (r : Reader) (n : FieldNames) (filter : String) (hf : Selects filter r)
    (dt : F K) (l : List (Named K)) (h : ∀ x ∈ l, x.There eng disk r n filter) {out : TOut K}
    (hout : pyVtk eng disk n filter dt (l.map Named.name) = .ok (some out)) {p : Profile} {cs : List (Call K)} (ho : VtkOpened l out p cs) :
    FieldsOf p (fun c => out.onDisk.answer p (cs ++ [c]))
      ((inTime dt (windowOf cs) (l.map fun x => (x.step, x.recs))).map fun r => (r.pos, r.vel)) := by
  unfold pyVtk at hout
  rw [(selects_iff filter r).2 hf] at hout
  obtain ⟨o, e, e2⟩ := run_bind_inv hout
  cases e2
  exact fields_convert eng disk r n filter dt l l (.refl _) h e ho

theorem folder_convert (eng : Engine) (disk : String → Option (DataSet K)) (le : String → String → Bool) (r : Reader) (n : FieldNames) (filter : String)
    (hf : Selects filter r) (dt : F K) (listing : List String) (l : List (Named K))
    (hlist : ∃ others, listing.Perm (l.map Named.name ++ others) ∧ ∀ s ∈ others, ¬ Wanted s) (hw : ∀ x ∈ l, Wanted x.name) {out : TOut K}
    (hout : pyVtkFolder eng disk le n filter dt listing = .ok (some out)) :
    ∃ l' : List (Named K), l'.Perm l ∧ convertFiles eng disk r n filter dt (l'.map Named.name) = .ok out := by
  have hfil : (folderFiles le listing).Perm (l.map Named.name) := by
    obtain ⟨others, ho, hno⟩ := hlist
    refine (List.mergeSort_perm _ le).trans ((ho.filter _).trans ?_)
    rw [List.filter_append, List.filter_eq_self.2, List.filter_eq_nil_iff.2, List.append_nil]
    · intro s hs hc
      exact hno s hs ((wanted_iff s).1 hc)
    · intro s hs
      obtain ⟨x, hx, rfl⟩ := List.mem_map.1 hs
      exact (wanted_iff _).2 (hw x hx)
  obtain ⟨l', k1, k2⟩ := perm_of_map Named.name hfil.symm l rfl
  unfold pyVtkFolder at hout
  rw [(selects_iff filter r).2 hf] at hout
  dsimp only at hout
  by_cases h0 : folderFiles le listing = []
  · rw [if_pos h0] at hout; cases hout
  · rw [if_neg h0, ← k2] at hout
    obtain ⟨o, e, e2⟩ := run_bind_inv hout
    cases e2
    exact ⟨l', k1, e⟩

/-- **C123, `Converter.vtk_from_folder`.** For any order in which the folder lists its files, and whatever else is in it. -/
theorem C123_folder [LawfulArith K] (eng : Engine) (disk : String → Option (DataSet K)) (le : String → String → Bool) (r : Reader) (n : FieldNames) (filter : String)
    (hf : Selects filter r) (dt : F K) (listing : List String) (l : List (Named K))
    (hlist : ∃ others, listing.Perm (l.map Named.name ++ others) ∧ ∀ s ∈ others, ¬ Wanted s) (hw : ∀ x ∈ l, Wanted x.name)
    (h : ∀ x ∈ l, x.There eng disk r n filter) {out : TOut K}
    (hout : pyVtkFolder eng disk le n filter dt listing = .ok (some out)) {p : Profile} {cs : List (Call K)} (ho : VtkOpened l out p cs) :
    FieldsOf p (fun c => out.onDisk.answer p (cs ++ [c]))
      ((inTime dt (windowOf cs) (l.map fun x => (x.step, x.recs))).map fun r => (r.pos, r.vel)) := by
  obtain ⟨l', k1, e⟩ := folder_convert eng disk le r n filter hf dt listing l hlist hw hout
  exact fields_convert eng disk r n filter dt l l' k1 h e ho

/-- **C123, CSV files of one trajectory.** -/
theorem C123_csv [LawfulArith K] {radius : F K} {rows : List (Row7 K)} {out : POut K} {p : Profile} {cs : List (Call K)} (h : RowSitting radius rows out p cs) :
    FieldsOf p (fun c => (out.onDisk p).answer p (cs ++ [c])) ((rowsIn (windowOf cs) rows).map fun r => (r.p, r.v)) := by
  obtain ⟨t, t1, t3, _, t6, t7, t8⟩ := h.state
  obtain ⟨r1, r2⟩ := samples_rows radius rows t.dm.file t7 (windowOf cs)
  have hs : t.dm.samples t.sel = samples (Selector.default.setTime (windowOf cs).1 (windowOf cs).2) t.dm.file (List.range rows.length) := by
    unfold Dm.samples
    rw [t3, t6]
  refine fields_of_seen p t ⟨t1, ?_, by rw [t6]; exact usable_default, ?_⟩ _ ?_ _ t8
  · intro k hk
    rw [t3] at hk
    exact isPoint_wf (t7 k hk)
  · have := congrArg List.length r2
    rw [List.length_map] at this
    rw [hs, this]
    exact (List.length_filter_le _ _).trans (h.count.trans (by norm_num))
  · have e : t.dm.seen t.sel = ((samples (Selector.default.setTime (windowOf cs).1 (windowOf cs).2) t.dm.file (List.range rows.length)).map
        fun x : ℕ × ℕ => rows.getD x.1 ⟨nan, fun _ => nan, fun _ => nan⟩).map fun r => (r.p, r.v) := by
      unfold Dm.seen
      rw [hs, List.map_map]
      refine List.map_congr_left fun x hx => ?_
      rw [(r1 x hx).1, (r1 x hx).2]
      rfl
    rw [e, r2]

/-- CSV files for the timesteps, converted with a list of times; calls on the `Data` object of the result have returned. -/
structure StepSitting (cols : List ℕ) (times : List (F K)) (files : List (List (List (F K)))) (rows : List (List (StepRow K))) (out : TOut K) (p : Profile)
    (cs : List (Call K)) : Prop where
  columns : cols.length = 4 ∨ cols.length = 7
  lines : List.Forall₂ (List.Forall₂ (StepRowOf cols)) files rows
  given : files ≠ []
  timed : files.length ≤ times.length
  count : files.length ≤ 2 ^ 50
  converted : fileConvert cols times files = .ok out
  fits : ∀ c ∈ cs, c.Fits files.length
  returned : ∃ r, out.onDisk.session p cs = .ok r

/-- The particles of the files with a time in the window. -/
def stepsIn (w : F K × F K) (times : List (F K)) (rows : List (List (StepRow K))) : List (StepRow K) :=
  ((times.zip rows).filter fun x => decide (w.1 ≤ x.1) && decide (x.1 ≤ w.2)).flatMap Prod.snd

/-- What a session sees of such files: their particles, in order. -/
theorem seen_steps (data : List (F K × List (StepRow K))) (steps : ℕ → Timestep K) (h : ∀ k (hk : k < data.length), IsStep data[k].1 data[k].2 (steps k))
    (w : F K × F K) :
    (samples (Selector.default.setTime w.1 w.2) steps (List.range data.length)).map (fun x => (posOf steps x, velOf steps x)) =
      ((data.filter fun x => decide (w.1 ≤ x.1) && decide (x.1 ≤ w.2)).flatMap Prod.snd).map fun r => (r.p, r.v) := by
  have e0 : ∀ l : List (F K × List (StepRow K)), (l.filter fun x => decide (w.1 ≤ x.1) && decide (x.1 ≤ w.2)).flatMap Prod.snd =
      l.flatMap fun x => if decide (w.1 ≤ x.1) && decide (x.1 ≤ w.2) then x.2 else [] := by
    intro l
    induction l with
    | nil => rfl
    | cons r rows ih =>
      rw [List.filter_cons, List.flatMap_cons, ← ih]
      split_ifs <;> simp
  rw [e0]
  conv_rhs => rw [list_range_getD data (nan, [])]
  unfold samples
  rw [List.flatMap_map, List.map_flatMap, List.map_flatMap]
  refine List.flatMap_congr fun t ht => ?_
  have ht := List.mem_range.1 ht
  have hg : data.getD t (nan, []) = data[t] := by
    rw [List.getD_eq_getElem?_getD, List.getElem?_eq_getElem ht]; rfl
  rw [hg]
  obtain ⟨h1, _, h3, h4, _⟩ := h t ht
  unfold Timestep.picks
  have hv : (Selector.default.setTime w.1 w.2 : Selector K).timestepValid (steps t).time = (decide (w.1 ≤ data[t].1) && decide (data[t].1 ≤ w.2)) := by
    unfold Selector.timestepValid
    rw [h1]; rfl
  rw [hv]
  split_ifs
  · rw [List.filter_eq_self.2 fun i _ => chosen_window (steps t) w.1 w.2 i, List.map_map, h3, List.length_map]
    apply List.ext_getElem
    · simp
    · intro i k1 k2
      have k3 : i < data[t].2.length := by simpa using k1
      rw [List.getElem_map, List.getElem_map, List.getElem_range]
      unfold posOf velOf Timestep.pos Timestep.vel
      dsimp only [Function.comp]
      rw [h3, h4]
      simp [List.getElem?_eq_getElem k3]
  · rfl

theorem StepSitting.state [LawfulArith K] {cols : List ℕ} {times : List (F K)} {files : List (List (List (F K)))} {rows : List (List (StepRow K))} {out : TOut K}
    {p : Profile} {cs : List (Call K)} (h : StepSitting cols times files rows out p cs) :
    ∃ t : PyData K, t.dm.Inv ∧ t.dm.n = files.length ∧ t.sel = Selector.default.setTime (windowOf cs).1 (windowOf cs).2 ∧
      (∀ k, k < t.dm.n → (t.dm.file k).Wf) ∧
      (∀ k (hk : k < ((times.take files.length).zip rows).length),
        IsStep ((times.take files.length).zip rows)[k].1 ((times.take files.length).zip rows)[k].2 (t.dm.file k)) ∧
      ∀ c, out.onDisk.answer p (cs ++ [c]) = (t.call p c >>= fun r => pure (some r.2)) := by
  obtain ⟨⟨t, as⟩, hr⟩ := h.returned
  have hc := h.converted
  rw [fileConvert_eq cols h.columns times files rows h.lines h.timed] at hc
  have hlen := h.lines.length_eq
  have hzl : ((times.take files.length).zip rows).length = files.length := by
    have := h.timed
    simp; omega
  obtain ⟨hg, -⟩ := stepAfter_fields ((times.take files.length).zip rows) VtkState.init
  have hg' : (((times.take files.length).zip rows).foldl stepAfter VtkState.init).groups = ((times.take files.length).zip rows).map (fun x => stepGroup x.1 x.2) := hg
  have hn : out.onDisk.n = files.length := by
    cases hc; rfl
  have hgr : out.groups = ((times.take files.length).zip rows).map (fun x => stepGroup x.1 x.2) := by
    cases hc; exact hg'
  have h1 : 1 ≤ files.length := by
    have := List.length_pos_iff.2 h.given; omega
  obtain ⟨kind, s1, s2, s3, s4⟩ := session_state p out.onDisk (by rw [hn]; exact h1) (by rw [hn]; exact h.count) cs (by rw [hn]; exact h.fits) hr
  have step : ∀ k (hk : k < ((times.take files.length).zip rows).length),
      (stepGroup ((times.take files.length).zip rows)[k].1 ((times.take files.length).zip rows)[k].2).Holds (t.dm.file k) := by
    intro k hk
    obtain ⟨ts, e, hh⟩ := tRead_ok out.groups k (stepGroup ((times.take files.length).zip rows)[k].1 ((times.take files.length).zip rows)[k].2)
      (by rw [hgr, List.getElem?_map, List.getElem?_eq_getElem hk]; rfl) ⟨rfl, rfl, rfl, rfl, rfl, rfl, rfl⟩
    have : t.dm.file k = ts := by
      rw [s1.fileEq]
      change (tRead out.groups k).toOption.getD Timestep.default = ts
      rw [e]; rfl
    rw [this]; exact hh
  refine ⟨t, s1.inv, s1.num.trans hn, s4, ?_, ?_, ?_⟩
  · intro k hk
    rw [s1.num, hn, ← hzl] at hk
    obtain ⟨_, k2, k3, k4, k5, k6, k7, _, k9⟩ := step k hk
    simp only [stepGroup, Option.some.injEq] at k2 k3 k4 k5 k6 k7
    have k9 := (k9 rfl).1
    unfold Timestep.Wf
    rw [k9, ← k2, ← k3, ← k4, ← k5, ← k6, ← k7]
    simp
  · intro k hk
    obtain ⟨k1, k2, k3, k4, k5, k6, k7, _⟩ := step k hk
    simp only [stepGroup, Option.some.injEq] at k1 k2 k3 k4 k5 k6 k7
    exact ⟨k1.symm, k5.symm, k2.symm, k3.symm, k4.symm, k7.symm, k6.symm⟩
  · intro c
    rw [answer_snoc, hr, run_bind_ok]

theorem zip_take_length {α β : Type} (a : List α) (b : List β) : (a.take b.length).zip b = a.zip b := by
  induction b generalizing a with
  | nil => simp
  | cons y b ih =>
    cases a with
    | nil => simp
    | cons x a => simp [ih]

/-- **C123, CSV files for the timesteps.** -/
theorem C123_files [LawfulArith K] {cols : List ℕ} {times : List (F K)} {files : List (List (List (F K)))} {rows : List (List (StepRow K))} {out : TOut K}
    {p : Profile} {cs : List (Call K)} (h : StepSitting cols times files rows out p cs) (hlen : rows.flatten.length ≤ 2 ^ 53) :
    FieldsOf p (fun c => out.onDisk.answer p (cs ++ [c])) ((stepsIn (windowOf cs) times rows).map fun r => (r.p, r.v)) := by
  obtain ⟨t, t1, t2, t3, t4, t5, t6⟩ := h.state
  have hl := h.lines.length_eq
  rw [hl, zip_take_length] at t5
  have hzl : (times.zip rows).length = files.length := by
    have := h.timed
    simp; omega
  have e : t.dm.seen t.sel = ((stepsIn (windowOf cs) times rows).map fun r => (r.p, r.v)) := by
    unfold Dm.seen Dm.samples
    rw [t2, t3, ← hzl]
    exact seen_steps (times.zip rows) t.dm.file t5 (windowOf cs)
  refine fields_of_seen p t ⟨t1, t4, by rw [t3]; exact usable_default, ?_⟩ _ (by rw [e]) _ t6
  have e2 := congrArg List.length e
  unfold Dm.seen at e2
  rw [List.length_map, List.length_map] at e2
  rw [e2]
  refine le_trans ?_ hlen
  unfold stepsIn
  have hz : ((times.zip rows).map Prod.snd).flatten.length ≤ rows.flatten.length := by
    rw [List.map_snd_zip (by rw [← hl]; exact h.timed)]
  refine le_trans ?_ hz
  rw [List.flatMap_def]
  exact ((List.filter_sublist).map _).flatten.length_le

/-! ### Cases -/

theorem t_opens [LawfulArith K] (out : TOut K) (p : Profile) (h1 : 1 ≤ out.onDisk.n) (h2 : out.onDisk.n ≤ 2 ^ 50) : ∃ r, out.onDisk.session p [] = .ok r := by
  obtain ⟨d, e1, _⟩ := Dm.new_ok p .tdata out.onDisk.file out.onDisk.n Timestep.default h1 h2
  unfold OnDisk.session OnDisk.load
  rw [if_pos (show out.onDisk.ty = 1 from rfl), e1]
  exact ⟨_, rfl⟩

theorem real_max (x : ℝ) (h0 : 0 ≤ x) (h1 : x ≤ 1000) : -Arith.maxK ≤ x ∧ x ≤ Arith.maxK := by
  have hm : (1000 : ℝ) ≤ Arith.maxK := by
    rw [show (Arith.maxK : ℝ) = (2 ^ 53 - 1) * 2 ^ 971 from rfl]
    have h : (1 : ℝ) ≤ 2 ^ 971 := one_le_pow₀ (by norm_num)
    generalize (2 : ℝ) ^ 971 = y at h
    norm_num
    linarith
  constructor <;> linarith

/-- The hypotheses of `C123_folder`: the folder of two legacy files of C96, just opened. Two particles are in one file, one in the other; all three are seen. -/
example (p : Profile) : ∃ out : TOut ℝ, FieldsOf p (fun c => out.onDisk.answer p ([] ++ [c]))
    [(fun _ => fin 5, fun _ => 0), ((restRec (fun _ => fin 7)).pos, (restRec (fun _ => fin 7)).vel), ((restRec (fun _ => fin 7)).pos, (restRec (fun _ => fin 7)).vel)] := by
  obtain ⟨_, out, _, _, hout, _⟩ := twoNamed_folder
  have hlist : ∃ others, ["out/drum_20_boundingBox.vtk", "out/drum_20.vtk", "out/log.txt", "out/drum_3.vtk"].Perm (twoNamed.map Named.name ++ others) ∧
      ∀ s ∈ others, ¬ Wanted s := by
    refine ⟨["out/drum_20_boundingBox.vtk", "out/log.txt"], ?_, ?_⟩
    · change List.Perm _ (["out/drum_20.vtk", "out/drum_3.vtk"] ++ _)
      decide
    · intro s hs
      simp only [List.mem_cons, List.not_mem_nil, or_false] at hs
      rcases hs with rfl | rfl <;> (unfold Wanted; decide)
  have hw : ∀ x ∈ twoNamed, Wanted x.name := by
    intro x hx
    simp only [twoNamed, List.mem_cons, List.not_mem_nil, or_false] at hx
    rcases hx with rfl | rfl <;> (unfold Wanted; dsimp only; decide)
  have hne : ∀ x ∈ twoNamed, x.recs ≠ [] := by
    intro x hx
    simp only [twoNamed, List.mem_cons, List.not_mem_nil, or_false] at hx
    rcases hx with rfl | rfl <;> simp [twoRecs]
  have hsel : Selects "(\\d+).vtk" .legacy := by unfold Selects; decide
  obtain ⟨l', k1, e⟩ := folder_convert _ _ _ .legacy _ _ hsel _ _ twoNamed hlist hw hout
  rw [convertFiles_eq _ _ _ _ _ _ l' fun x hx => twoNamed_there x (k1.subset hx)] at e
  have hl0 : (l'.map fun x => (x.step, x.recs)) ≠ [] := by
    intro h0
    rw [List.map_eq_nil_iff] at h0
    rw [h0] at k1
    have := k1.length_eq
    simp [twoNamed] at this
  have hn := (holdsVtk (askedFor docNames) (opts_full docNames) (fin 1) (l'.map fun x => (x.step, x.recs)) hl0 (by
    intro f hf
    obtain ⟨x, hx, rfl⟩ := List.mem_map.1 hf
    exact hne x (k1.subset hx)) out e).num
  rw [List.length_map, k1.length_eq] at hn
  have := C123_folder _ _ _ .legacy _ _ hsel _ _ twoNamed hlist hw twoNamed_there hout (p := p) (cs := [])
    ⟨by simp [twoNamed], by norm_num [twoNamed], hne, by simp, t_opens out p (by rw [hn]; simp [twoNamed]) (by rw [hn]; norm_num [twoNamed]),
      by norm_num [twoNamed, twoRecs]⟩
  refine ⟨out, ?_⟩
  convert this using 1
  unfold inTime windowOf settings twoNamed
  have h20 := real_max 20 (by norm_num) (by norm_num)
  have h3 := real_max 3 (by norm_num) (by norm_num)
  simp only [List.map_cons, List.map_nil, List.filter_cons, List.filter_nil, goFiles_time, Int.cast_ofNat]
  simp [h20, h3, twoRecs]

/-- The hypotheses of `C123_files`: two files, of which the second is in the window, and a particle of it in the cell. -/
example (p : Profile) : ∃ out : TOut ℝ, FieldsOf p (fun c => out.onDisk.answer p ([] ++ [c]))
    [(fun _ => 0, fun _ => 0), (fun _ => 1, fun _ => 0), (fun _ => 0, fun _ => 0)] := by
  obtain ⟨out, e, -⟩ := C70_files [0, 1, 2, 3, 4, 5, 6] (Or.inr rfl) [(1 : F ℝ), fin 2] twoFiles twoFilesRows twoFiles_rows (by simp [twoFiles])
    (by simp [twoFiles]) (by norm_num [twoFiles])
  have e' := e
  rw [fileConvert_eq _ (Or.inr rfl) _ twoFiles twoFilesRows twoFiles_rows (by simp [twoFiles])] at e'
  have hn : out.onDisk.n = 2 := by cases e'; rfl
  have := C123_files (p := p) (cs := []) ⟨Or.inr rfl, twoFiles_rows, by simp [twoFiles], by simp [twoFiles], by norm_num [twoFiles], e, by simp,
    t_opens out p (by rw [hn]; norm_num) (by rw [hn]; norm_num)⟩ (by norm_num [twoFilesRows])
  refine ⟨out, ?_⟩
  convert this using 1
  unfold stepsIn windowOf settings twoFilesRows
  have h1 := real_max 1 (by norm_num) (by norm_num)
  have h2 := real_max 2 (by norm_num) (by norm_num)
  simp only [F.one_def, List.zip_cons_cons, List.zip_nil_right, List.filter_cons, List.filter_nil]
  simp [h1, h2]

end Up4
