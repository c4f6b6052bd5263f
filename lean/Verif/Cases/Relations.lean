import Verif.Props.Nothing
import Verif.Props.Clock
import Verif.Props.Narrow

/-!
# Cases for the theorems that relate two calls

Concrete cases that meet the hypotheses of theorems of `Props/{Nothing,Clock,Narrow}.lean`.
-/

namespace Up4

open F

/-! ### Selections that take nothing -/

theorem case_unitFillable (p : Profile) : (unitGrid (K := ℝ)).Fillable p := fillable_cart _ _ unit_isCart

/-- Case for `C128_fields_partial` and `C128_ratios_partial`: four timesteps of a particle of radius 1, and the selection of the particles of radius 7; the
number field is 0, the velocity field NaN, and so is the concentration field. -/
example (p : Profile) (kind : Kind) : ∃ d : Dm (Timestep ℝ), Dm.new p kind (fun _ => oneStep) 4 Timestep.default = .ok d ∧
    (∃ d' g', numberfield p d unitGrid onlyBig = .ok (d', g') ∧ g'.st.data.get (fun _ => 0) = fin 0) ∧
    (∃ d' g', vectorfield p d unitGrid onlyBig = .ok (d', g') ∧ (g'.comp 1).st.data.get (fun _ => 0) = F.nan) ∧
    (∃ d' g', concentrationField p d unitGrid onlyBig 0 1 = .ok (d', g') ∧ g'.st.data.get (fun _ => 0) = F.nan) := by
  obtain ⟨d, e, hc, hn, hw, hus, _, hno, _⟩ := C128_showcase_false p kind
  have hin : InB (unitGrid (K := ℝ)).geom.cells (fun _ => 0) := fun _ => Nat.one_pos
  obtain ⟨⟨d1, g1, e1, h1⟩, _, ⟨d2, g2, e2, h2⟩, _⟩ := C128_fields_partial p d hc.1 unitGrid (case_unitFillable p) (fun _ => ⟨rfl, rfl⟩) onlyBig hus hw hno
  obtain ⟨h3, _⟩ := C128_ratios_partial p d hc unitGrid (case_unitFillable p) onlyBig hus hw hno
  obtain ⟨d3, g3, e3, h3⟩ := h3 0 1 (by norm_num)
  exact ⟨d, e, ⟨d1, g1, e1, (h1 _).1⟩, ⟨d2, g2, e2, (h2 1 _ hin).1⟩, d3, g3, e3, h3 _ hin⟩

/-- Case for `C128_histogram_partial` and `C128_circulation_partial`: the same recording; ten empty bins, and no circulation. -/
example (p : Profile) (kind : Kind) : ∃ d : Dm (Timestep ℝ), Dm.new p kind (fun _ => oneStep) 4 Timestep.default = .ok d ∧
    (∃ d' e, ∃ counts : Arr 1 (F ℝ), histogram p d demoStats unitGrid onlyBig "velocity" (fin 5) 10 = .ok (d', counts, e) ∧ counts.get ![3] = fin 0) ∧
    answerOf (circulationTime p d demoStats onlyBig 0 (fin 1)) = .ok [] := by
  obtain ⟨d, e, hc, hn, hw, hus, _, hno, _⟩ := C128_showcase_false p kind
  obtain ⟨d', e', counts, h1, _, h2⟩ := C128_histogram_partial p d hc.1 demoStats unitGrid onlyBig hus hw hno (fin 5) 10 (by norm_num) (by norm_num)
  have hd : demoStats.dims 0 = (fin 0, fin 2) := rfl
  obtain ⟨h3, _⟩ := C128_circulation_partial p d hc.1 demoStats onlyBig hus hw hno 0 (fin 1) (fin 1)
    (by rw [hd, F.le_fin]; norm_num) (by rw [hd, F.le_fin]; norm_num) (by rw [hd, F.le_fin]; norm_num) (by rw [hd, F.le_fin]; norm_num)
  exact ⟨d, e, ⟨d', e', counts, h1, h2 3 (by norm_num)⟩, h3⟩

/-- Case for `C128_later_partial`: the same recording, all of whose times are 0. -/
example (p : Profile) (kind : Kind) : ∃ d : Dm (Timestep ℝ), Dm.new p kind (fun _ => oneStep) 4 Timestep.default = .ok d ∧
    ∃ g', answerOf (dispersion p d ⟨demoStats.dims, 1, timesOf (fun _ => (0 : ℝ)) 4, demoStats.speed⟩ unitGrid onlyBig (fin 1)) = .ok (g', F.nan) ∧ g'.st.data.get (fun _ => 0) = fin 0 := by
  obtain ⟨d, e, hc, hn, hw, hus, _, hno, _⟩ := C128_showcase_false p kind
  obtain ⟨d₁, e₁, _, hf, _⟩ := Dm.canLook_new p kind (fun _ => oneStep (K := ℝ)) 4 Timestep.default (by norm_num) (by norm_num) (Or.inr (by unfold BUFFERSIZE; norm_num))
  rw [e] at e₁
  cases e₁
  obtain ⟨⟨g', h1, h2⟩, _⟩ := C128_later_partial p ⟨demoStats.dims, 1, timesOf (fun _ => (0 : ℝ)) 4, demoStats.speed⟩ onlyBig hus 1 unitGrid (case_unitFillable p) (fun _ => ⟨rfl, rfl⟩) d hc
    (fun _ => 0) ⟨by rw [hn], fun t _ => by rw [hf]; rfl, fun _ _ _ _ => le_rfl⟩ hw hno
  exact ⟨d, e, g', h1, (h2 _ (fun _ => Nat.one_pos)).1⟩

/-! ### Another clock -/

/-- The demo dataset with its times in another unit, and the same selection in both. -/
theorem clock_case (p : Profile) (kind : Kind) : ∃ d d' : Dm (Timestep ℝ), Dm.new p kind demoFile 4 Timestep.default = .ok d ∧ d.CanLook ∧ d'.CanLook ∧ d.n = 4 ∧
    (∀ t, t < d.n → (d.file t).Wf) ∧ Retimed (1 / 1000) 0 (fun t => (t : ℝ)) d d' ∧ Rewindowed (1 / 1000) 0 atOne atMilli := by
  obtain ⟨d, d', e, e', h1, h2, _⟩ := C129_unit_false p kind
  obtain ⟨d₁, e₁, hc, hf, hn⟩ := Dm.canLook_new p kind demoFile 4 Timestep.default (by norm_num) (by norm_num) (Or.inr (by unfold BUFFERSIZE; norm_num))
  obtain ⟨d₂, e₂, hc', _, _⟩ := Dm.canLook_new p kind milliFile 4 Timestep.default (by norm_num) (by norm_num) (Or.inr (by unfold BUFFERSIZE; norm_num))
  rw [e] at e₁
  rw [e'] at e₂
  cases e₁
  cases e₂
  exact ⟨d, d', e, hc, hc', hn, fun t _ => by rw [hf]; exact demoFile_wf t, h1, h2⟩

theorem atOne_usable : atOne.Usable := ⟨(usable_default (K := ℝ)).1, (usable_default (K := ℝ)).2.1, (usable_default (K := ℝ)).2.2.1, (usable_default (K := ℝ)).2.2.2⟩

/-- Case for `C129_fields_partial`, `C129_lacey_partial`, `C129_circulation_partial`, `C129_twoBoundary_partial` and `C129_occupancy_partial`: seconds and milliseconds. -/
example (p : Profile) (kind : Kind) : ∃ d d' : Dm (Timestep ℝ), Dm.new p kind demoFile 4 Timestep.default = .ok d ∧
    answerOf (numberfield p d' unitGrid atMilli) = answerOf (numberfield p d unitGrid atOne) ∧
    (∃ g g', answerOf (occupancyfield p d unitGrid atOne (fin 0)) = .ok g ∧ answerOf (occupancyfield p d' unitGrid atMilli (fin 0)) = .ok g' ∧
      g'.st.data.get (fun _ => 0) = g.st.data.get (fun _ => 0)) ∧
    (answerOf (laceyMixing p d' unitGrid atMilli 0 1 1) >>= fun l => .ok (l.map fun x => x.2) : Run (List (F ℝ))) =
      (answerOf (laceyMixing p d unitGrid atOne 0 1 1) >>= fun l => .ok (l.map fun x => x.2)) ∧
    RunRel (fun out out' : List (F ℝ) => ∃ L : List ℝ, out = L.map F.fin ∧ out' = (L.map fun x => 1 / 1000 * x).map F.fin)
      (answerOf (circulationTime p d demoStats atOne 0 (fin 1))) (answerOf (circulationTime p d' demoStats atMilli 0 (fin 1))) ∧
    RunRel (fun out out' : List (F ℝ × F ℝ) => ∃ L : List (ℝ × ℝ), out = L.map (fun z => (fin z.1, fin z.2)) ∧
        out' = L.map fun z => (fin (1 / 1000 * z.1 + 0), fin (1 / 1000 * z.2 + 0)))
      (answerOf (circulationTwoBoundary p d demoStats atOne 0 (fin 1) (fin 1))) (answerOf (circulationTwoBoundary p d' demoStats atMilli 0 (fin 1) (fin 1))) := by
  obtain ⟨d, d', e, hc, hc', hn, hw, h1, h2⟩ := clock_case p kind
  refine ⟨d, d', e, (C129_fields_partial p (by norm_num) h1 h2 atOne_usable hc.1 hc'.1 hw unitGrid).1, ?_, ?_, ?_, ?_⟩
  · obtain ⟨g, g', k1, k2, _, k3⟩ := C129_occupancy_partial p (by norm_num) h1 h2 atOne_usable hc hc' (by omega) hw unitGrid (Or.inl unit_isCart) (fun _ => rfl) (fin 0)
    exact ⟨g, g', k1, k2, (k3 _).1⟩
  · exact C129_lacey_partial p (by norm_num) h1 h2 hc.1 hc'.1 unitGrid 0 1 1
  · exact C129_circulation_partial p (by norm_num) h1 h2 atOne_usable hc.1 hc'.1 (by omega) hw demoStats 0 (fin 1)
  · exact C129_twoBoundary_partial p (by norm_num) h1 h2 atOne_usable hc.1 hc'.1 (by omega) hw demoStats 0 (fin 1) (fin 1)

/-- The demo dataset, recorded with a clock that is five seconds ahead. -/
noncomputable def aheadFile (t : ℕ) : Timestep ℝ := { demoFile t with time := fin (1 * (t : ℝ) + 5) }

/-- The window of the second recording by this clock. -/
noncomputable def atSix : Selector ℝ := { (Selector.default : Selector ℝ) with time := (fin (1 * 1 + 5), fin (1 * 1 + 5)) }

/-- Case for `C129_origin_partial`: a clock that is five seconds ahead. -/
example (p : Profile) (kind : Kind) : ∃ d d' : Dm (Timestep ℝ), Dm.new p kind demoFile 4 Timestep.default = .ok d ∧ Dm.new p kind aheadFile 4 Timestep.default = .ok d' ∧
    answerOf (msdField p d' ⟨demoStats.dims, 1, timesOf (fun t : ℕ => (t : ℝ) + 5) 4, demoStats.speed⟩ unitGrid atSix (fin 1)) = answerOf (msdField p d demoStats unitGrid atOne (fin 1)) := by
  obtain ⟨d, e, hc, hf, hn⟩ := Dm.canLook_new p kind demoFile 4 Timestep.default (by norm_num) (by norm_num) (Or.inr (by unfold BUFFERSIZE; norm_num))
  obtain ⟨d', e', hc', hf', hn'⟩ := Dm.canLook_new p kind aheadFile 4 Timestep.default (by norm_num) (by norm_num) (Or.inr (by unfold BUFFERSIZE; norm_num))
  refine ⟨d, d', e, e', (C129_origin_partial p (s := 5) (τ := fun t => (t : ℝ)) ⟨by rw [hn, hn'], fun t _ => by rw [hf]; rfl, fun t _ => by rw [hf, hf']; rfl⟩ (sel := atOne) ⟨⟨1, 1, rfl, rfl⟩⟩ atOne_usable hc hc'
    (fun t _ => by rw [hf]; exact demoFile_wf t) demoStats _ ?_ ?_ unitGrid 1).2⟩
  · rw [hf, hn]
    have := demo_clocked 4 demoStats rfl
    simpa using this
  · rw [hf', hn']
    refine ⟨rfl, fun t _ => ?_, fun i j h _ => ?_⟩
    · change fin (1 * (t : ℝ) + 5) = fin ((t : ℝ) + 5)
      rw [one_mul]
    · have : (i : ℝ) ≤ j := by exact_mod_cast h
      linarith

end Up4
