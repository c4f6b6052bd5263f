import Verif.Props.UsedGrid
import Verif.Props.Selector
import Verif.Props.Buffer
import Verif.Props.Search
import Verif.Proofs.LookAhead
import Verif.Props.Fields

/-!
# Cases for the theorems on selections and data managers

Concrete cases that meet the hypotheses of theorems of `Props/{Selector,Buffer,Search,UsedGrid}.lean` and `Proofs/LookAhead.lean`.
-/

namespace Up4

open F

/-- Case for `C25_default_accepts`: a particle with an infinite radius and without a cloud or a density is accepted. -/
example : (Selector.default : Selector ℝ).isValid F.pinf F.nan F.nan 12345 = .ok true := C25_default_accepts _ _ _ _

/-- Case for `C25_default_time`: the default window contains the time -7/2, not infinity and not NaN. -/
example : (Selector.default : Selector ℝ).timestepValid (fin (-7 / 2)) = true ∧ ¬ (Selector.default : Selector ℝ).timestepValid F.pinf = true ∧
    ¬ (Selector.default : Selector ℝ).timestepValid F.nan = true := by
  refine ⟨(C25_default_time _).2 ⟨_, rfl, ?_⟩, fun h => ?_, fun h => ?_⟩
  · change |(-7 / 2 : ℝ)| ≤ (2 ^ 53 - 1) * 2 ^ 971
    have key : ∀ x : ℝ, 1 ≤ x → 10 ≤ (2 ^ 53 - 1) * x := fun x hx => by norm_num; linarith
    have h2 : (10 : ℝ) ≤ (2 ^ 53 - 1) * 2 ^ 971 := key _ (one_le_pow₀ (by norm_num))
    refine le_trans ?_ h2
    rw [abs_le]; constructor <;> norm_num
  · obtain ⟨x, hx, _⟩ := (C25_default_time _).1 h; cases hx
  · obtain ⟨x, hx, _⟩ := (C25_default_time _).1 h; cases hx

/-- Case for `C25_default_time_b64`: the default window contains 3/2. -/
example : (Selector.default : Selector B64).timestepValid (F.fin (3 / 2)) = true :=
  C25_default_time_b64 _ (by
    have := LawfulArith.rnd_dyadic (K := B64) 3 1 (by norm_num) (by norm_num)
    simpa using this)

/-- Ranges everywhere: radius between 1 and 2, cloud between 0 and 5, density between 1 and 2, ids 3 to 5. -/
noncomputable def caseRanges : Selector ℝ := ⟨(0, 1), [fin 1, fin 2], [fin 0, fin 5], [fin 1, fin 2], [3, 5]⟩

theorem case_range {a b x : ℝ} (h : a ≤ x ∧ x ≤ b) : AcceptsF [fin a, fin b] (fin x) :=
  ⟨by simp, Or.inr (Or.inl ⟨_, _, rfl, (F.le_fin _ _).2 h.1, (F.le_fin _ _).2 h.2⟩)⟩

/-- Case for `C26_radius`, `C26_particleid`, `C26_cloud_partial` and `C26_density_partial`: the filters of `caseRanges` accept the radius 3/2, the
id 4, the cloud 5 and the density 1. -/
example : caseRanges.isRadiusValid (fin (3 / 2)) = .ok true ∧ caseRanges.isParticleidValid 4 = .ok true ∧
    caseRanges.isCloudValid (fin 5) = .ok true ∧ caseRanges.isDensityValid (fin 1) = .ok true := by
  refine ⟨?_, ?_, ?_, ?_⟩
  · obtain ⟨b, e, h⟩ := C26_radius caseRanges (by simp [caseRanges]) (fin (3 / 2))
    rw [e, h.2 (Or.inr (case_range (by norm_num)))]
  · obtain ⟨b, e, h⟩ := C26_particleid caseRanges (by simp [caseRanges]) 4
    rw [e, h.2 (Or.inr ⟨by simp, Or.inr (Or.inl ⟨_, _, rfl, by norm_num, by norm_num⟩)⟩)]
  · obtain ⟨b, e, h⟩ := C26_cloud_partial caseRanges (by simp [caseRanges]) (by simp [caseRanges]) (fin 5)
    rw [e, h.2 (Or.inr (case_range (by norm_num)))]
  · obtain ⟨b, e, h⟩ := C26_density_partial caseRanges (by simp [caseRanges]) (by simp [caseRanges]) (by simp [caseRanges]) (fin 1)
    rw [e, h.2 (Or.inr (case_range (by norm_num)))]

/-- Case for `C30_no_interference`: reading ahead between two reads does not change what they return. -/
example : ∃ d d' outs, Dm.new .release .pdata (fun t => t * t) 3 0 = .ok d ∧
    d.serve ℝ .release 0 [.setup 0, .get 0, .getBuf 1 0, .get 1, .getBuf 2 0, .get 2] = .ok (d', outs) ∧ outs[3]? = some (some 1) ∧
    outs[5]? = some (some 4) := by
  obtain ⟨d, d', h1, h2⟩ := C29_small (K := ℝ) .release .pdata (fun t => t * t) 3 0 (by norm_num) (by norm_num)
    [.setup 0, .get 0, .getBuf 1 0, .get 1, .getBuf 2 0, .get 2] (by simp [ValidReqs])
  have key := C30_no_interference (K := ℝ) .release .pdata (fun t => t * t) 3 0 (by norm_num) (by norm_num)
    [.setup 0, .get 0, .getBuf 1 0, .get 1, .getBuf 2 0, .get 2] (by intro t ht; simp at ht; omega) d d' _ h1 h2
  exact ⟨d, d', _, h1, h2, key 3 1 rfl, key 5 2 rfl⟩

/-- Case for `C30_setup`: a buffer for looking ahead in a file of 50000 timesteps starts with the first 20000. -/
example : ∃ d d', Dm.new .release .tdata (fun t => t * t) 50000 0 = .ok d ∧ d.setup .release 0 7 = .ok d' ∧ d'.main = d.main ∧
    d'.extra.length = 1 ∧ ∃ b : Buf ℕ, d'.extra[d'.names.findIdx (· == 7)]? = some b ∧ b.lo = 0 ∧ b.hi = 20000 := by
  obtain ⟨d, e, hinv, hf, hn, _, hex, hnm, _⟩ := Dm.new_ok .release .tdata (fun t : ℕ => t * t) 50000 0 (by norm_num) (by norm_num)
  obtain ⟨d', h1, h2, h3, b, h4, _, h5, h6⟩ := C30_setup .release 0 d hinv 7
  refine ⟨d, d', e, h1, h2, ?_, b, h4, h5, ?_⟩
  · rw [h3, hex, hnm]; rfl
  · rw [h6, hn]; rfl

/-- Case for `C31_extract` and `C31_backwards`: rows 1 and 2 of the only particle of the demo recording; the other way round raises. -/
example (p : Profile) (kind : Kind) : ∃ d : Dm (Timestep ℝ), Dm.new p kind demoFile 4 Timestep.default = .ok d ∧
    (∃ d', extract p d 0 1 3 = .ok (d', [[fin 1, fin (1 / 2), fin (1 / 2), fin (1 / 2), fin 3, fin 0, fin 4],
      [fin 2, fin 1, fin 1, fin 1, fin 3, fin 0, fin 4]])) ∧ ∃ e, extract p d 0 3 1 = .error e := by
  obtain ⟨d, e, hinv, hf, hn, hw, _⟩ := demo_manager p kind 4 (by norm_num) (by norm_num)
  refine ⟨d, e, ?_, C31_backwards p d 0 3 1 (by norm_num)⟩
  obtain ⟨d', _, _, _, h⟩ := C31_extract p d hinv 0 1 3 (by norm_num) (by omega) (fun t h1 h2 => ⟨hw t (by omega), by rw [hf]; simp [demoFile]⟩)
  refine ⟨d', ?_⟩
  rw [h, hf]
  congr 2
  simp [List.range_succ, Timestep.pos, Timestep.vel, demoFile]
  norm_num

/-- Case for `C32_monotone`: recorded times 0, 1, 2, 3; the timestep for 0 is not after the one for 3. -/
example (p : Profile) : ∃ k k', closest p (timesOf (fun t : ℕ => (t : ℝ)) 4) (fin 0) = .ok (some k) ∧
    closest p (timesOf (fun t : ℕ => (t : ℝ)) 4) (fin 3) = .ok (some k') ∧ k ≤ k' := by
  have key : ∀ k : ℕ, k < 4 → closest p (timesOf (fun t : ℕ => (t : ℝ)) 4) (fin (k : ℝ)) = .ok (some k) := fun k hk => by
    refine C33_recorded_partial p (fun t : ℕ => (t : ℝ)) 4 k hk (by norm_num) (fun i j h _ => by exact_mod_cast h) (fun i _ h => ?_)
    rw [F.esub, F.elit]
    simp only [F.abs, F.lt_fin, not_lt]
    have h1 : (1 : ℝ) ≤ |(i : ℝ) - k| := by
      have h2 : ((i : ℤ) - k) ≠ 0 := by omega
      have h3 : (1 : ℤ) ≤ |(i : ℤ) - k| := Int.one_le_abs h2
      exact_mod_cast h3
    linarith
  have h0 := key 0 (by norm_num)
  have h3 := key 3 (by norm_num)
  norm_num at h0 h3
  exact ⟨0, 3, h0, h3, C32_monotone p _ 4 (by norm_num) (by norm_num) ((F.le_fin _ _).2 (by norm_num)) h0 h3⟩

/-- Case for `C58_numberfield`: the counts of the demo recording do not depend on the weights of the grid given. -/
example (p : Profile) (kind : Kind) : ∃ d d₁ g₁ d₂ g₂, Dm.new p kind demoFile 4 Timestep.default = .ok d ∧
    numberfield p d (unitGrid (K := ℝ)) Selector.default = .ok (d₁, g₁) ∧
    numberfield p d ({ unitGrid (K := ℝ) with st := { (unitGrid (K := ℝ)).st with weight := ⟨fun _ => 1, fun _ => fin 9⟩ } }) Selector.default =
      .ok (d₂, g₂) ∧ ∀ c, g₁.st.data.get c = g₂.st.data.get c := by
  obtain ⟨d, e, hinv, hf, hn, hw, hs⟩ := demo_manager p kind 4 (by norm_num) (by norm_num)
  have hu := fillable_cart p _ (unit_isCart (K := ℝ))
  obtain ⟨d₁, g₁, d₂, g₂, h⟩ := C58_numberfield p d hinv unitGrid
    ({ unitGrid (K := ℝ) with st := { (unitGrid (K := ℝ)).st with weight := ⟨fun _ => 1, fun _ => fin 9⟩ } }) rfl
    hu ⟨⟨rfl, rfl⟩, hu.2⟩ Selector.default (usable_default (K := ℝ)) hw (by rw [hs]; simp)
  exact ⟨d, d₁, g₁, d₂, g₂, e, h⟩

end Up4
