import Verif.Props.Units
import Verif.Props.HistPool

set_option linter.unusedSectionVars false

/-!
# C160: the histogram does not depend on the units
-/

namespace Up4
open F
open Selector (at')

variable {K : Type} [Field K] [LinearOrder K] [IsStrictOrderedRing K] [FloorRing K] [Arith K]

/-- Measured in another unit and from another origin, a position is inside the box if it was. -/
theorem affine_inside (cells : CellId) (lo hi : Fin 3 → K) (k s : Fin 3 → K) (hk : ∀ a, 0 < k a) (pos : Pos K) :
    (Grid.newCart cells (finLimits (fun a => k a * lo a + s a) fun a => k a * hi a + s a)).isInside (affine k s pos) =
      (Grid.newCart cells (finLimits lo hi)).isInside pos := by
  change (CartGeom.new cells (finLimits (fun a => k a * lo a + s a) fun a => k a * hi a + s a)).isInside (affine k s pos) =
    (CartGeom.new cells (finLimits lo hi)).isInside pos
  rw [Bool.eq_iff_iff, CartGeom.isInside_iff, CartGeom.isInside_iff]
  refine forall_congr' fun a => ?_
  have hkk : ∀ x y : K, k a * x + s a ≤ k a * y + s a ↔ x ≤ y := by
    intro x y
    rw [add_le_add_iff_right, mul_le_mul_iff_right₀ (hk a)]
  change (affine k s pos a ≠ F.nan ∧ fin (k a * lo a + s a) ≤ affine k s pos a ∧ affine k s pos a ≤ fin (k a * hi a + s a)) ↔
    (pos a ≠ F.nan ∧ fin (lo a) ≤ pos a ∧ pos a ≤ fin (hi a))
  unfold affine
  cases hq : pos a with
  | fin x => simp [F.le_fin, hkk]
  | _ => simp

/-- **C160, unit of length.** Positions and grid in other units (per axis) and relative to another origin: the same histogram. In exact arithmetic. -/
theorem C160_length [LawfulArith K] [ExactArith K] (p : Profile) (cells : CellId) (lo hi : Fin 3 → K)
    (k s : Fin 3 → K) (hk : ∀ a, 0 < k a) (d₁ d₂ : Dm (Timestep K)) (hd : Rescaled k s d₁ d₂) (hi₂ : d₂.Inv) (sel : Selector K) (hr : Ready d₁ sel)
    (st : Stats K) (maxLimit : F K) (bins : ℕ) (hb : 1 ≤ bins) (hb' : bins ≤ 2 ^ 53) :
    ∃ d₁' h₁ d₂' h₂ edges,
      histogram p d₁ st (Grid.newCart cells (finLimits lo hi)) sel "velocity" maxLimit bins = .ok (d₁', h₁, edges) ∧
      histogram p d₂ st (Grid.newCart cells (finLimits (fun a => k a * lo a + s a) fun a => k a * hi a + s a)) sel "velocity" maxLimit bins =
        .ok (d₂', h₂, edges) ∧ ∀ j, j < bins → h₁.get ![j] = h₂.get ![j] := by
  have hr₂ := rescaled_ready hd hi₂ sel hr
  obtain ⟨d₁', h₁, r₁, _, _, _, _, e₁⟩ := histogram_run p d₁ hr.inv st (Grid.newCart cells (finLimits lo hi)) sel hr.usable hr.wf hr.few maxLimit bins hb hb'
  obtain ⟨d₂', h₂, r₂, _, _, _, _, e₂⟩ := histogram_run p d₂ hi₂ st (Grid.newCart cells (finLimits (fun a => k a * lo a + s a) fun a => k a * hi a + s a)) sel
    hr₂.usable hr₂.wf hr₂.few maxLimit bins hb hb'
  refine ⟨d₁', h₁, d₂', h₂, _, r₁, r₂, fun j hj => ?_⟩
  rw [e₁ j hj, e₂ j hj, seen_hist, seen_hist, (rescaled_seen hd sel).2, List.countP_map]
  congr 2
  refine List.countP_congr fun q _ => ?_
  simp only [Function.comp, affine_inside cells lo hi k s hk]

/-- **C160, unit of velocity.** Velocities, the recorded extremes and the given limit in another unit (`k > 0` of the new unit per old one): the same counts, and the
edges converted. In exact arithmetic, for finite velocities; as in `C39_histogram_partial`, the bins are those of the recorded minimum and the limit. -/
theorem C160_velocity [LawfulArith K] [ExactArith K] (p : Profile) (grid : Grid K) (k : K) (hk : 0 < k) (d₁ d₂ : Dm (Timestep K)) (hd : Faster k d₁ d₂)
    (hi₂ : d₂.Inv) (sel : Selector K) (hr : Ready d₁ sel) (hv : FiniteVel (d₁.seen sel)) (st₁ st₂ : Stats K) (max₁ max₂ : F K)
    (bins : ℕ) (hb : 1 ≤ bins) (hb' : bins ≤ 2 ^ 53) (mn mx : K) (hlt : mn < mx) (a₁ : st₁.speed 0 = fin mn) (b₁ : histMax st₁ max₁ = fin mx)
    (a₂ : st₂.speed 0 = fin (k * mn)) (b₂ : histMax st₂ max₂ = fin (k * mx)) :
    ∃ d₁' h₁ e₁ d₂' h₂ e₂, histogram p d₁ st₁ grid sel "velocity" max₁ bins = .ok (d₁', h₁, e₁) ∧
      histogram p d₂ st₂ grid sel "velocity" max₂ bins = .ok (d₂', h₂, e₂) ∧
      (∀ j, j ≤ bins → ∃ u : K, e₁.getD j F.nan = fin u ∧ e₂.getD j F.nan = fin (k * u)) ∧ ∀ j, j < bins → h₁.get ![j] = h₂.get ![j] := by
  have hr₂ := faster_ready hd hi₂ sel hr
  obtain ⟨hsam, hseen⟩ := faster_seen hd hr.wf sel
  obtain ⟨v, hv₁⟩ := seen_finite hv
  have hall : ∀ x ∈ d₁.samples sel, posOf d₂.file x = posOf d₁.file x ∧ ∀ a, velOf d₂.file x a = fin (k * v x a) := by
    intro x hx
    have hb := hseen
    unfold Dm.seen at hb
    rw [hsam, List.map_map, List.map_inj_left] at hb
    have hb := hb x hx
    refine ⟨(Prod.mk.inj hb).1, fun a => ?_⟩
    have := congrFun (Prod.mk.inj hb).2 a
    rw [this, ← emul, ← hv₁ x hx a]
  have sq : ∀ w : Fin 3 → K, 0 ≤ w 0 * w 0 + w 1 * w 1 + w 2 * w 2 := fun w => by
    have := mul_self_nonneg (w 0); have := mul_self_nonneg (w 1); have := mul_self_nonneg (w 2); linarith
  have hT : ∀ x, ∃ T, (fin (v x 0 * v x 0 + v x 1 * v x 1 + v x 2 * v x 2) : F K).sqrt = fin T ∧ 0 ≤ T ∧
      T * T = v x 0 * v x 0 + v x 1 * v x 1 + v x 2 * v x 2 := fun x => sqrt_root (sq (v x))
  choose T t1 t2 t3 using hT
  have s₁ : ∀ x ∈ d₁.samples sel, speedOf d₁.file x = fin (T x) := by
    intro x hx
    change (velOf d₁.file x 0 * velOf d₁.file x 0 + velOf d₁.file x 1 * velOf d₁.file x 1 + velOf d₁.file x 2 * velOf d₁.file x 2).sqrt = _
    rw [hv₁ x hx 0, hv₁ x hx 1, hv₁ x hx 2, emul, emul, emul, eadd, eadd, t1]
  have s₂ : ∀ x ∈ d₁.samples sel, speedOf d₂.file x = fin (k * T x) := by
    intro x hx
    change (velOf d₂.file x 0 * velOf d₂.file x 0 + velOf d₂.file x 1 * velOf d₂.file x 1 + velOf d₂.file x 2 * velOf d₂.file x 2).sqrt = _
    have h := (hall x hx).2
    rw [h 0, h 1, h 2, emul, emul, emul, eadd, eadd]
    obtain ⟨U, u1, u2, u3⟩ := sqrt_root (sq fun a => k * v x a)
    rw [u1]
    congr 1
    have e : U * U = (k * T x) * (k * T x) := by
      rw [u3, show k * T x * (k * T x) = k * k * (T x * T x) by ring, t3 x]; ring
    exact (mul_self_inj u2 (mul_nonneg hk.le (t2 x))).1 e
  obtain ⟨d₁', h₁, e₁, r₁, _, _, _, _, _, q₁, n₁⟩ := C39_histogram_partial p d₁ hr.inv st₁ grid sel hr.usable hr.wf hr.few max₁ bins hb hb' mn mx a₁ b₁ hlt T
    fun x hx _ => s₁ x hx
  obtain ⟨d₂', h₂, e₂, r₂, _, _, _, _, _, q₂, n₂⟩ := C39_histogram_partial p d₂ hi₂ st₂ grid sel hr₂.usable hr₂.wf hr₂.few max₂ bins hb hb' (k * mn) (k * mx) a₂ b₂
    (mul_lt_mul_of_pos_left hlt hk) (fun x => k * T x) fun x hx _ => s₂ x (by rwa [hsam] at hx)
  have hedge : ∀ j : K, k * mn + j * ((k * mx - k * mn) / bins) = k * (mn + j * ((mx - mn) / bins)) := by
    intro j
    rw [← mul_sub, mul_div_assoc]; ring
  refine ⟨d₁', h₁, e₁, d₂', h₂, e₂, r₁, r₂, fun j hj => ⟨_, q₁ j hj, by rw [q₂ j hj, hedge]⟩, fun j hj => ?_⟩
  rw [n₁ j hj, n₂ j hj, hsam]
  congr 2
  refine List.countP_congr fun x hx => ?_
  rw [(hall x hx).1, hedge, hedge]
  simp only [Bool.and_eq_true, decide_eq_true_eq, mul_le_mul_iff_right₀ hk, mul_lt_mul_iff_right₀ hk]

/-- Case for `C160_length`: the demo dataset and the unit grid in thousandths of the unit and shifted by 7; any statistics. -/
example (p : Profile) (kind : Kind) (st : Stats ℝ) : ∃ d₁ d₂ : Dm (Timestep ℝ), Dm.new p kind demoFile 4 Timestep.default = .ok d₁ ∧
    Rescaled (fun _ => (1000 : ℝ)) (fun _ => 7) d₁ d₂ ∧
    ∃ d₁' h₁ d₂' h₂ edges, histogram p d₁ st (Grid.newCart (fun _ => 1) (finLimits (fun _ => 0) fun _ => 1)) Selector.default "velocity" (fin 4) 7 =
        .ok (d₁', h₁, edges) ∧
      histogram p d₂ st (Grid.newCart (fun _ => 1) (finLimits (fun _ => 1000 * 0 + 7) fun _ => 1000 * 1 + 7)) Selector.default "velocity" (fin 4) 7 =
        .ok (d₂', h₂, edges) ∧ ∀ j, j < 7 → h₁.get ![j] = h₂.get ![j] := by
  obtain ⟨d, e, hinv, hf, hn, hw, hS⟩ := demo_manager p kind 4 (by norm_num) (by norm_num)
  obtain ⟨d₂, _, hinv₂, hf₂, hn₂, _⟩ := Dm.new_ok p kind (fun t => { demoFile t with position := (demoFile t).position.map (affine (fun _ => 1000) fun _ => 7) }) 4
    Timestep.default (by norm_num) (by norm_num)
  have hd : Rescaled (fun _ => (1000 : ℝ)) (fun _ => 7) d d₂ := ⟨by rw [hn, hn₂], fun t _ => by rw [hf, hf₂]⟩
  exact ⟨d, d₂, e, hd, C160_length p (fun _ => 1) (fun _ => 0) (fun _ => 1) (fun _ => 1000) (fun _ => 7) (fun _ => by norm_num) d d₂ hd hinv₂ Selector.default
    ⟨hinv, hw, usable_default, by rw [hS]; simp⟩ st (fin 4) 7 (by norm_num) (by norm_num)⟩

/-- Case for `C160_velocity`: the demo dataset in hundredths of its unit; recorded extremes 0 and 4, in the new unit 0 and 400. -/
example (p : Profile) (kind : Kind) (hdims : Fin 3 → F ℝ × F ℝ) : ∃ d₁ d₂ : Dm (Timestep ℝ), Dm.new p kind demoFile 4 Timestep.default = .ok d₁ ∧
    Faster (100 : ℝ) d₁ d₂ ∧ d₁.seen Selector.default ≠ [] ∧
    ∃ d₁' h₁ e₁ d₂' h₂ e₂, histogram p d₁ ⟨hdims, 1, [fin 0], ![fin 0, fin 1, fin 4]⟩ unitGrid Selector.default "velocity" (fin 0) 7 = .ok (d₁', h₁, e₁) ∧
      histogram p d₂ ⟨hdims, 1, [fin 0], ![fin 0, fin 1, fin 400]⟩ unitGrid Selector.default "velocity" (fin 0) 7 = .ok (d₂', h₂, e₂) ∧
      (∀ j, j ≤ 7 → ∃ u : ℝ, e₁.getD j F.nan = fin u ∧ e₂.getD j F.nan = fin (100 * u)) ∧ ∀ j, j < 7 → h₁.get ![j] = h₂.get ![j] := by
  obtain ⟨d, e, hinv, hf, hn, hw, hS⟩ := demo_manager p kind 4 (by norm_num) (by norm_num)
  obtain ⟨d₂, _, hinv₂, hf₂, hn₂, _⟩ := Dm.new_ok p kind (fun t => { demoFile t with velocity := (demoFile t).velocity.map fun v a => fin 100 * v a }) 4
    Timestep.default (by norm_num) (by norm_num)
  have hfast : Faster (100 : ℝ) d d₂ := ⟨by rw [hn, hn₂], fun t _ => by rw [hf, hf₂]⟩
  refine ⟨d, d₂, e, hfast, ?_, C160_velocity p unitGrid 100 (by norm_num) d d₂ hfast hinv₂ Selector.default ⟨hinv, hw, usable_default, by rw [hS]; simp⟩ ?_
    _ _ (fin 0) (fin 0) 7 (by norm_num) (by norm_num) 0 4 (by norm_num) rfl (by unfold histMax; simp [F.eqB]) (by norm_num) (by
      unfold histMax
      simp [F.eqB]
      norm_num)⟩
  · unfold Dm.seen
    rw [hS]
    simp
  · intro x hx a
    unfold Dm.seen at hx
    rw [hS] at hx
    obtain ⟨y, hy, rfl⟩ := List.mem_map.1 hx
    obtain ⟨t, _, rfl⟩ := List.mem_map.1 hy
    rw [hf]
    fin_cases a <;> exact ⟨_, rfl⟩

end Up4
