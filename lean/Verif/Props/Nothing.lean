import Verif.Props.Follow
import Verif.Props.Concentration
import Verif.Props.Lacey
import Verif.Props.Granular
import Verif.Props.Histogram
import Verif.Props.Showcase

/-!
C128: a selection that takes nothing gives an empty answer. Which empty answer differs from method to method (zero for the counts
and for `dispersion` and `msd_field`, NaN for the means and for `occupancyfield`, an empty list for the circulation times);
`lacey_mixing` raises instead and `mean_velocity_showcase` answers for everyone.
-/

set_option linter.unusedSectionVars false

namespace Up4

open F
open Selector (at')

variable {K : Type} [Field K] [LinearOrder K] [IsStrictOrderedRing K] [FloorRing K] [Arith K]

/-- The selection takes no particle of any timestep. -/
def TakesNothing (sel : Selector K) (d : Dm (Timestep K)) : Prop :=
  ∀ t, t < d.n → sel.timestepValid (d.file t).time = true → ∀ i, i < (d.file t).position.length → (d.file t).chosen sel i = false

theorem TakesNothing.samples {sel : Selector K} {d : Dm (Timestep K)} (h : TakesNothing sel d) (l : List ℕ) (hl : ∀ t ∈ l, t < d.n) :
    samples sel d.file l = [] := by
  refine List.eq_nil_iff_forall_not_mem.2 fun x hx => ?_
  obtain ⟨t, i⟩ := x
  obtain ⟨h1, h2, h3, h4⟩ := (mem_samples _ _ _ _ _).1 hx
  rw [h t (hl t h1) h2 i h3] at h4
  exact Bool.false_ne_true h4

theorem TakesNothing.all {sel : Selector K} {d : Dm (Timestep K)} (h : TakesNothing sel d) : d.samples sel = [] :=
  h.samples _ fun _ ht => List.mem_range.1 ht

theorem TakesNothing.leads {sel : Selector K} {d : Dm (Timestep K)} (h : TakesNothing sel d) (next : ℕ → Option ℕ) (l : List ℕ)
    (hl : ∀ t ∈ l, t < d.n) : leads sel d.file next l = [] := by
  refine List.eq_nil_iff_forall_not_mem.2 fun x hx => ?_
  obtain ⟨t, i, t'⟩ := x
  have := ((mem_leads _ _ _ _ _ _ _).1 hx).1
  rw [h.samples l hl] at this
  cases this

theorem TakesNothing.observations {sel : Selector K} {d : Dm (Timestep K)} (h : TakesNothing sel d) (old : ℕ) (l : List ℕ)
    (hl : ∀ t ∈ l, t < d.n) : observations sel d.file old l = [] := by
  refine List.eq_nil_iff_forall_not_mem.2 fun o ho => ?_
  obtain ⟨_, h1, h2⟩ := mem_observations _ _ _ _ _ ho
  have : (o.2.1, o.2.2) ∈ Up4.samples sel d.file l :=
    List.mem_flatMap.2 ⟨o.2.1, h1, List.mem_map.2 ⟨o.2.2, h2, rfl⟩⟩
  rw [h.samples l hl] at this
  cases this

theorem zero_over : (fin 0 / fin 0 : F K) = F.nan := by
  rw [F.div_fin]; simp [F.infTimes]

theorem sum_of_zeros [LawfulArith K] (l : List (F K)) (h : ∀ x ∈ l, x = fin 0) : F.sum l = fin 0 := by
  unfold F.sum
  rw [F.zero_def]
  induction l with
  | nil => rfl
  | cons x l ih =>
    rw [List.foldl_cons, h x List.mem_cons_self, F.add_fin, add_zero, F.rnd_zero]
    exact ih fun y hy => h y (List.mem_cons_of_mem _ hy)

/-- **C128 (partial).** The fields over all timesteps: `numberfield` is zero, `velocityfield`, `vectorfield` and
`granular_temperature_field` are NaN with weight zero in every cell. -/
theorem C128_fields_partial [LawfulArith K] (p : Profile) (d : Dm (Timestep K)) (hd : d.Inv) (grid : Grid K)
    (hg : grid.Fillable p) (hfresh : ∀ c, grid.st.weight.get c = 0 ∧ grid.st.data.get c = 0)
    (sel : Selector K) (hs : sel.Usable) (hw : ∀ t, t < d.n → (d.file t).Wf) (h : TakesNothing sel d) :
    (∃ d' g', numberfield p d grid sel = .ok (d', g') ∧ ∀ c, g'.st.data.get c = fin 0 ∧ g'.st.weight.get c = fin 0) ∧
    (∀ (mode : String) (vcal : (Fin 3 → F K) → F K) (lo hi : F K), velMode mode = .ok vcal → lo ≠ F.nan → hi ≠ F.nan →
      ∃ d' g', velocityfield p d grid sel mode lo hi = .ok (d', g') ∧ ∀ c, InB grid.geom.cells c →
        g'.st.data.get c = F.nan ∧ g'.st.weight.get c = fin 0) ∧
    (∃ d' g', vectorfield p d grid sel = .ok (d', g') ∧ ∀ a c, InB grid.geom.cells c →
        (g'.comp a).st.data.get c = F.nan ∧ (g'.comp a).st.weight.get c = fin 0) ∧
    (∀ mode, mode = "x" ∨ mode = "y" ∨ mode = "z" ∨ mode = "xyz" →
      ∃ d' g', granularTemperature p d grid sel mode = .ok (d', g') ∧ ∀ c, InB grid.geom.cells c →
        g'.st.data.get c = F.nan ∧ g'.st.weight.get c = fin 0) := by
  have he := h.all
  have hlen : (d.samples sel).length ≤ 2 ^ 53 := by rw [he]; exact Nat.zero_le _
  refine ⟨?_, fun mode vcal lo hi hm hlo hhi => ?_, ?_, fun mode hm => ?_⟩
  · obtain ⟨d', g', e, _, _, _, _, _, k1, k2, _⟩ := C34_numberfield p d hd grid hg sel hs hw hlen
    refine ⟨d', g', e, fun c => ?_⟩
    have k3 : g'.st.data.get c = fin 0 := by rw [k1 c, he]; simp
    exact ⟨k3, by rw [k2 (fun c => (hfresh c).1) c, k3]⟩
  · obtain ⟨d', g', e, _, _, _, _, k⟩ := C35_velocityfield p d hd grid hg (fun c => (hfresh c).1) sel hs hw hlen mode vcal hm lo hi hlo hhi
    refine ⟨d', g', e, fun c hc => ?_⟩
    obtain ⟨k1, _, k2⟩ := k c hc
    rw [he] at k1 k2
    exact ⟨k2 rfl, by rw [k1]; simp⟩
  · obtain ⟨d', g', e, _, _, _, k⟩ := C36_vectorfield p d hd grid hg hfresh sel hs hw hlen
    refine ⟨d', g', e, fun a c hc => ?_⟩
    obtain ⟨k1, _, k2, _⟩ := (k a).2 c hc
    rw [he] at k1 k2
    exact ⟨k2 rfl, by rw [k1]; simp⟩
  · obtain ⟨d', g', e, _, _, _, _, _, k⟩ := granular_run p d hd grid hg sel hs hw mode hm
    refine ⟨d', g', e, fun c hc => ?_⟩
    obtain ⟨k1, k2⟩ := k c hc
    rw [he] at k1 k2
    have z : grid.st.data.get c = fin 0 := (hfresh c).2
    refine ⟨?_, by rw [k1]; exact z⟩
    rw [k2]
    simp only [List.filter_nil, List.map_nil, List.foldl_nil, List.length_nil, List.replicate_zero, z]
    have e0 : (fin (0 : K) - fin 0 * fin 0 / fin 0 : F K) = F.nan := by
      rw [F.mul_fin, mul_zero, F.rnd_zero, zero_over]; exact F.sub_nan _
    have : modeValue mode (F.nan : F K) F.nan F.nan = F.nan := by unfold modeValue; split_ifs <;> simp
    rw [e0, this]
    rfl

/-- **C128 (partial).** `concentration_field` and `occupancyfield` are NaN everywhere. -/
theorem C128_ratios_partial [LawfulArith K] (p : Profile) (d : Dm (Timestep K)) (hd : d.CanLook) (grid : Grid K)
    (hg : grid.Fillable p) (sel : Selector K) (hs : sel.Usable) (hw : ∀ t, t < d.n → (d.file t).Wf) (h : TakesNothing sel d) :
    (∀ a b, a ≠ b → ∃ d' g', concentrationField p d grid sel a b = .ok (d', g') ∧ ∀ c, InB grid.geom.cells c →
      g'.st.data.get c = F.nan) ∧
    (∀ minV, 3 ≤ d.n → ∃ g', answerOf (occupancyfield p d grid sel minV) = .ok g' ∧ ∀ c, g'.st.data.get c = F.nan) := by
  refine ⟨fun a b hab => ?_, fun minV hn => ?_⟩
  · have he := h.samples (List.range (d.n - 1)) fun t ht => by have := List.mem_range.1 ht; omega
    obtain ⟨d', g', e, _, _, _, _, _, k⟩ := C43_concentration p d hd.1 grid hg sel hs hw a b hab (by rw [he]; exact Nat.zero_le _)
    refine ⟨d', g', e, fun c hc => ?_⟩
    have := (k c hc).1
    rw [he] at this
    exact this rfl
  · rw [occupancy_answer p d hd hn hw grid sel hs minV, h.samples _ (fun t ht => by have := List.mem_range'_1.1 ht; omega)]
    refine ⟨_, rfl, fun c => ?_⟩
    exact zero_over

/-- **C128 (partial).** `histogram` counts nothing. -/
theorem C128_histogram_partial [LawfulArith K] (p : Profile) (d : Dm (Timestep K)) (hd : d.Inv) (st : Stats K) (grid : Grid K)
    (sel : Selector K) (hs : sel.Usable) (hw : ∀ t, t < d.n → (d.file t).Wf) (h : TakesNothing sel d)
    (maxLimit : F K) (bins : ℕ) (hb : 1 ≤ bins) (hb' : bins ≤ 2 ^ 53) :
    ∃ d' e, ∃ counts : Arr 1 (F K), histogram p d st grid sel "velocity" maxLimit bins = .ok (d', counts, e) ∧ counts.shape = ![bins] ∧
      ∀ k, k < bins → counts.get ![k] = fin 0 := by
  obtain ⟨d', h', e, _, _, _, h1, h2⟩ := histogram_run p d hd st grid sel hs hw (by rw [h.all]; exact Nat.zero_le _) maxLimit bins hb hb'
  refine ⟨d', _, h', e, h1, fun k hk => ?_⟩
  rw [h2 k hk, h.all]
  simp

/-- **C128 (partial).** `circulation_time` and `circulation_time_two_boundary` report no circulation. -/
theorem C128_circulation_partial [LawfulArith K] (p : Profile) (d : Dm (Timestep K)) (hd : d.Inv) (st : Stats K)
    (sel : Selector K) (hs : sel.Usable) (hw : ∀ t, t < d.n → (d.file t).Wf) (h : TakesNothing sel d) (axis : Fin 3) (lo hi : F K)
    (h1 : lo ≤ (st.dims axis).2) (h2 : (st.dims axis).1 ≤ lo) (h3 : hi ≤ (st.dims axis).2) (h4 : (st.dims axis).1 ≤ hi) :
    answerOf (circulationTime p d st sel axis lo) = .ok [] ∧
    answerOf (circulationTwoBoundary p d st sel axis lo hi) = .ok [] := by
  have he : observations sel d.file 0 (List.range' 1 (d.n - 2)) = [] :=
    h.observations 0 _ fun t ht => by have := List.mem_range'_1.1 ht; omega
  have hlo : ¬ (lo > (st.dims axis).2 ∨ lo < (st.dims axis).1) := by
    rintro (h | h)
    · exact not_lt_of_le' h1 h
    · exact not_lt_of_le' h2 h
  have hhi : ¬ (hi > (st.dims axis).2 ∨ hi < (st.dims axis).1) := by
    rintro (h | h)
    · exact not_lt_of_le' h3 h
    · exact not_lt_of_le' h4 h
  constructor
  · unfold circulationTime
    rw [if_neg hlo, circ_answer p d hd hw sel hs _ _ (fun s : Circ K => s.out), he]
    rfl
  · unfold circulationTwoBoundary
    rw [if_neg hlo, if_neg hhi, circ_answer p d hd hw sel hs _ _ (fun s : Circ2 K => s.out), he]
    rfl

/-- **C128 (partial).** `dispersion` and `msd_field` are zero in every cell, with weight zero; the mean that `dispersion` returns
with the field is NaN. -/
theorem C128_later_partial [LawfulArith K] (p : Profile) (st : Stats K) (sel : Selector K) (hs : sel.Usable) (δ : K) (grid : Grid K)
    (hg : grid.Fillable p) (hfresh : ∀ c, grid.st.weight.get c = 0 ∧ grid.st.data.get c = 0)
    (d : Dm (Timestep K)) (hd : d.CanLook) (τ : ℕ → K) (hc : Clocked st d.file d.n τ) (hw : ∀ t, t < d.n → (d.file t).Wf)
    (h : TakesNothing sel d) :
    (∃ g', answerOf (dispersion p d st grid sel (fin δ)) = .ok (g', F.nan) ∧ ∀ c, InB grid.geom.cells c →
      g'.st.data.get c = fin 0 ∧ g'.st.weight.get c = fin 0) ∧
    (∃ g', answerOf (msdField p d st grid sel (fin δ)) = .ok g' ∧ ∀ c, InB grid.geom.cells c →
      g'.st.data.get c = fin 0 ∧ g'.st.weight.get c = fin 0) := by
  constructor
  · rw [dispersion_answer p st sel hs δ grid d hd τ hc hw, h.leads _ _ fun t ht => List.mem_range.1 ht]
    have hsh : (Sums.init grid).Shaped grid.geom.cells := ⟨fun _ => hg.1.1, fun _ => hg.1.1, hg.1.1⟩
    obtain ⟨g', e, h1, h2, h3⟩ := dispersionCells_spec (Sums.init grid) grid.newZeros hsh (newZeros_shaped hg.1)
    have hcell : ∀ c, InB grid.geom.cells c → g'.st.data.get c = fin 0 ∧ g'.st.weight.get c = fin 0 := by
      intro c hc'
      obtain ⟨k1, k2⟩ := h3 c hc'
      have hn : ¬ ((Sums.init grid).cnt.get c > 1) := by
        change ¬ ((1 : F K) < grid.st.data.get c)
        rw [(hfresh c).2, F.zero_def, F.one_def, F.lt_fin]
        exact not_lt.2 zero_le_one
      rw [if_neg hn] at k1 k2
      exact ⟨k1, k2.trans (hfresh c).1⟩
    have s1 : g'.st.data.shape = grid.geom.cells := by rw [h2.1, h1]; rfl
    have s2 : g'.st.weight.shape = grid.geom.cells := by rw [h2.2, h1]; rfl
    obtain ⟨q, w1, w2, w3⟩ := Arr.zipWith_same (fun x y : F K => x * y) g'.st.weight g'.st.data (s2.trans s1.symm)
    refine ⟨g', ?_, hcell⟩
    rw [List.foldlM_nil]
    change (dispersionCells (Sums.init grid) grid.newZeros >>= _ : Run _) = _
    rw [e, run_bind_ok]
    change (Arr.zipWith (fun x y : F K => x * y) g'.st.weight g'.st.data >>= _ : Run _) = _
    rw [w1, run_bind_ok]
    have z1 : F.sum q.toList = fin 0 := by
      refine sum_of_zeros _ fun x hx => ?_
      obtain ⟨c, hc', rfl⟩ := List.mem_map.1 hx
      have hc2 : InB grid.geom.cells c := by
        have := (mem_indices _ _).1 hc'
        rwa [w2, s2] at this
      rw [w3 c (by rw [s2]; exact hc2), (hcell c hc2).1, (hcell c hc2).2, F.mul_fin, mul_zero, F.rnd_zero]
    have z2 : F.sum g'.st.weight.toList = fin 0 := by
      refine sum_of_zeros _ fun x hx => ?_
      obtain ⟨c, hc', rfl⟩ := List.mem_map.1 hx
      have hc2 : InB grid.geom.cells c := by
        have := (mem_indices _ _).1 hc'
        rwa [s2] at this
      exact (hcell c hc2).2
    rw [z1, z2, zero_over]
    rfl
  · rw [msd_answer p st sel hs δ grid d hd τ hc hw, h.leads _ _ fun t ht => by have := List.mem_range.1 ht; omega]
    obtain ⟨q, w1, w2, w3⟩ := Arr.zipWith_same (fun x y : F K => if y > 0 then (x * x) / y else 0) grid.newZeros.st.data
      grid.newZeros.st.weight hg.1.2.symm
    refine ⟨{ grid with st := ⟨q, grid.st.weight⟩ }, ?_, fun c hc' => ⟨?_, (hfresh c).1⟩⟩
    · rw [List.foldlM_nil]
      change (Arr.zipWith (fun x y : F K => if y > 0 then (x * x) / y else 0) grid.newZeros.st.data grid.newZeros.st.weight >>= _ : Run _) = _
      rw [w1, run_bind_ok]
      unfold Grid.setData Store.setData
      rw [if_pos (show grid.st.data.shape = q.shape from hg.1.1.trans w2.symm), run_bind_ok, run_pure, run_bind_ok]
      unfold Grid.setWeights Store.setWeights
      rw [if_pos (show grid.st.weight.shape = grid.newZeros.st.weight.shape from rfl)]
      rfl
    · change q.get c = _
      rw [w3 c hc']
      change (if grid.st.weight.get c > 0 then _ else 0 : F K) = fin 0
      rw [(hfresh c).1, if_neg]
      · rfl
      · intro h0
        rw [F.zero_def] at h0
        exact lt_irrefl _ ((F.lt_fin _ _).1 h0)

/-- **C128, refuted for `lacey_mixing`.** If the window contains the first timestep but the selection takes none of its
particles, `lacey_mixing` raises instead of giving an empty answer. -/
theorem C128_lacey_false [LawfulArith K] (p : Profile) (d : Dm (Timestep K)) (hd : d.Inv) (hn : 2 ≤ d.n) (grid : Grid K)
    (hg : grid.Shaped) (sel : Selector K) (hs : sel.Usable) (hw : (d.file 0).Wf) (a b threshold : ℕ)
    (hv : sel.timestepValid (d.file 0).time = true) (h : TakesNothing sel d) :
    laceyMixing p d grid sel a b threshold = .error .index := by
  refine C42_empty_panics p d hd hn grid hg sel hs hw a b threshold hv (List.eq_nil_iff_forall_not_mem.2 fun i hi => ?_)
  have : ((0 : ℕ), i) ∈ samples sel d.file [0] := List.mem_flatMap.2 ⟨0, List.mem_singleton.2 rfl, List.mem_map.2 ⟨i, hi, rfl⟩⟩
  rw [h.samples [0] fun t ht => by rw [List.mem_singleton.1 ht]; omega] at this
  cases this

/-- The selector of all particles of radius 7. -/
def onlyBig : Selector K := { (Selector.default : Selector K) with radius := [fin 7] }

/-- **C128, refuted for `mean_velocity_showcase`; and a recording that meets the hypotheses of the theorems above.** Four timesteps of
a particle of radius 1 moving at speed 1, and a selection of the particles of radius 7: it takes nothing, although all times are in
its window; the fields of the unit cube are empty, and `mean_velocity_showcase` still answers 1. -/
theorem C128_showcase_false (p : Profile) (kind : Kind) :
    ∃ d : Dm (Timestep ℝ), Dm.new p kind (fun _ => oneStep) 4 Timestep.default = .ok d ∧ d.CanLook ∧ d.n = 4 ∧
      (∀ t, t < d.n → (d.file t).Wf) ∧ (onlyBig : Selector ℝ).Usable ∧ (∀ t, (onlyBig : Selector ℝ).timestepValid (d.file t).time = true) ∧ TakesNothing onlyBig d ∧
      (∃ g', answerOf (occupancyfield p d unitGrid onlyBig (fin 0)) = .ok g' ∧ ∀ c, g'.st.data.get c = F.nan) ∧
      ∃ d', meanVelocityShowcase p d onlyBig = .ok (d', fin 1) := by
  obtain ⟨d, e, hc, hf, hn⟩ := Dm.canLook_new p kind (fun _ => oneStep (K := ℝ)) 4 Timestep.default (by norm_num) (by norm_num)
    (Or.inr (by unfold BUFFERSIZE; norm_num))
  have hw : ∀ t, t < d.n → (d.file t).Wf := fun t _ => by rw [hf]; exact ⟨rfl, rfl, rfl, rfl, rfl, rfl⟩
  have hus : (onlyBig : Selector ℝ).Usable := ⟨by simp [onlyBig], (usable_default (K := ℝ)).2.1, (usable_default (K := ℝ)).2.2.1,
    (usable_default (K := ℝ)).2.2.2⟩
  have ht : (onlyBig : Selector ℝ).timestepValid (oneStep (K := ℝ)).time = true := one_time
  have hno : TakesNothing onlyBig d := by
    intro t _ _ i hi
    rw [hf] at hi ⊢
    have hi0 : i = 0 := by
      have : i < 1 := hi
      omega
    subst hi0
    have km : (-1 : F ℝ) = fin (-1) := by rw [F.one_def]; rfl
    have k1 : F.eqB (fin 7 : F ℝ) (-1) = false := by
      rw [← Bool.not_eq_true, eqB_iff, km]
      rintro ⟨h, _⟩
      injection h with h; norm_num at h
    have k4 : F.eqB (fin 1 : F ℝ) (fin 7) = false := by
      rw [← Bool.not_eq_true, eqB_iff]
      rintro ⟨h, _⟩
      injection h with h; norm_num at h
    simp [Timestep.chosen, onlyBig, oneStep, Selector.isValid, Selector.default, Selector.isRadiusValid, Selector.isCloudValid,
      Selector.isDensityValid, Selector.isParticleidValid, Selector.at', bind, Except.bind, pure, Except.pure, k1, k4]
  refine ⟨d, e, hc, hn, hw, hus, fun t => by rw [hf]; exact ht, hno, ?_, ?_⟩
  · rw [occupancy_answer p d hc (by omega) hw unitGrid onlyBig hus (fin 0), hno.samples _ (fun t ht => by have := List.mem_range'_1.1 ht; omega)]
    exact ⟨_, rfl, fun c => zero_over⟩
  · have hev : d.everyone onlyBig = [(0, 0), (1, 0), (2, 0), (3, 0)] := by
      unfold Dm.everyone
      rw [hf, hn]
      have h : (onlyBig : Selector ℝ).time.1 ≤ (oneStep (K := ℝ)).time ∧ (oneStep (K := ℝ)).time ≤ (onlyBig : Selector ℝ).time.2 := by
        unfold Selector.timestepValid at ht
        simpa using ht
      have hr : List.range 4 = [0, 1, 2, 3] := rfl
      rw [hr, List.filter_eq_self.2 fun t _ => by simpa using h]
      rfl
    have hvel : ∀ x ∈ d.everyone onlyBig, velOf d.file x = ![fin 1, fin 0, fin 0] := by
      rw [hev, hf]
      intro x hx
      simp only [List.mem_cons, List.not_mem_nil, or_false] at hx
      rcases hx with rfl | rfl | rfl | rfl <;> rfl
    obtain ⟨d', r, e1, e2⟩ := C107_exact_partial p d hc.1 onlyBig (by rw [hev]; norm_num) (fun _ => ![1, 0, 0])
      (fun x hx _ a => by rw [hvel x hx]; fin_cases a <;> rfl) (fun _ => 1) (fun x => by simp)
    have hS : (d.everyone onlyBig).filter (fun x => complete (velOf d.file x)) = d.everyone onlyBig :=
      List.filter_eq_self.2 fun x hx => by rw [hvel x hx]; rfl
    rw [hS] at e2
    have h2 := e2.2 (by rw [hev]; simp)
    rw [hev] at h2
    refine ⟨d', ?_⟩
    rw [e1, h2]
    unfold avg
    norm_num

end Up4
