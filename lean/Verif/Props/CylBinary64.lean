import Verif.Binary64
import Verif.Props.Cylinder

set_option linter.unusedSectionVars false

/-!
# C20 fails in binary64

A cylindrical grid over `[-3,3] × [-3,3] × [0,1]` with four radial shells: rounding makes the last shell end
at `3 - 2^-51`, while the recorded radius is `3`.  The position `(3, 0, 0)` is reported inside, and looking
up its cell panics.
-/

namespace Up4
open F

namespace B64

/-- Evaluate a rounded square root: exhibit the nearest `m·2^k`. -/
theorem sqrt_rnd {x : ℝ} {m : ℕ} {k : ℤ} (hm1 : 2 ^ 52 < m) (hm2 : m < 2 ^ 53 - 1) (hk : -1074 ≤ k)
    (hk2 : k ≤ 970) (h1 : (((m : ℝ) - 1 / 2) * 2 ^ k) ^ 2 < x) (h2 : x < (((m : ℝ) + 1 / 2) * 2 ^ k) ^ 2) :
    rnd (Real.sqrt x) = F.fin ((m : ℝ) * 2 ^ k) := by
  have hz := zp k
  have hm1' : ((2 ^ 52 : ℕ) : ℝ) + 1 ≤ m := by exact_mod_cast hm1
  have hm2' : (m : ℝ) + 1 ≤ ((2 ^ 53 : ℕ) : ℝ) := by
    have : m + 1 ≤ 2 ^ 53 := by omega
    exact_mod_cast this
  push_cast at hm1' hm2'
  have hp : 0 ≤ ((m : ℝ) + 1 / 2) * 2 ^ k := by
    refine mul_nonneg ?_ hz.le
    have := Nat.cast_nonneg (α := ℝ) m; linarith
  have a1 : ((m : ℝ) - 1 / 2) * 2 ^ k < Real.sqrt x := Real.lt_sqrt_of_sq_lt h1
  have a2 : Real.sqrt x < ((m : ℝ) + 1 / 2) * 2 ^ k := by
    rw [Real.sqrt_lt' (lt_of_le_of_ne hp ?_)]
    · exact h2
    · exact (mul_pos (by linarith) hz).ne
  refine rnd_eq (by omega) hk hk2 ?_ ?_ ?_
  · rw [zpow_add₀ (by norm_num)]
    refine le_trans (mul_le_mul_of_nonneg_right ?_ hz.le) a1.le
    have e : (2 : ℝ) ^ (52 : ℤ) = 2 ^ 52 := by norm_num
    rw [e]; linarith
  · rw [zpow_add₀ (by norm_num)]
    refine lt_of_lt_of_le a2 (mul_le_mul_of_nonneg_right ?_ hz.le)
    have e : (2 : ℝ) ^ (53 : ℤ) = 2 ^ 53 := by norm_num
    rw [e]; linarith
  · rw [abs_lt]
    constructor
    · rw [lt_sub_iff_add_lt, lt_div_iff₀ hz]; linarith
    · rw [sub_lt_iff_lt_add, div_lt_iff₀ hz]; linarith

/-- Dyadic numbers are kept. -/
theorem val {x : B64} (m : ℕ) (k : ℕ) (hm : m ≤ 2 ^ 53) (hk : k ≤ 1000) (h : x = (m : B64) / 2 ^ k) :
    Arith.rnd x = F.fin x := by
  rw [h]; exact LawfulArith.rnd_dyadic (K := B64) m k hm hk

theorem s2 : rnd (Real.sqrt (9 / 2)) = F.fin (4776788754394329 / 2251799813685248) := by
  rw [sqrt_rnd (m := 4776788754394329) (k := -51) (by norm_num) (by norm_num) (by norm_num) (by norm_num)
    (by norm_num) (by norm_num)]
  norm_num
theorem q2 : rnd (4776788754394329 / 2251799813685248 * (4776788754394329 / 2251799813685248)) =
    F.fin (5066549580791807 / 1125899906842624) := by
  rw [rnd_eq (m := 5066549580791807) (k := -50) (by norm_num) (by norm_num) (by norm_num)
    (by norm_num) (by norm_num) (by rw [abs_lt]; constructor <;> norm_num)]
  norm_num
theorem s3 : rnd (Real.sqrt (7599824371187711 / 1125899906842624)) =
    F.fin (5850347528665471 / 2251799813685248) := by
  rw [sqrt_rnd (m := 5850347528665471) (k := -51) (by norm_num) (by norm_num) (by norm_num) (by norm_num)
    (by norm_num) (by norm_num)]
  norm_num
theorem q3 : rnd (5850347528665471 / 2251799813685248 * (5850347528665471 / 2251799813685248)) =
    F.fin (7599824371187710 / 1125899906842624) := by
  rw [rnd_eq (m := 7599824371187710) (k := -50) (by norm_num) (by norm_num) (by norm_num)
    (by norm_num) (by norm_num) (by rw [abs_lt]; constructor <;> norm_num)]
  norm_num
theorem s4 : rnd (Real.sqrt (5066549580791807 / 562949953421312)) =
    F.fin (6755399441055743 / 2251799813685248) := by
  rw [sqrt_rnd (m := 6755399441055743) (k := -51) (by norm_num) (by norm_num) (by norm_num) (by norm_num)
    (by norm_num) (by norm_num)]
  norm_num

/-! The same facts for the type `B64`. -/
theorem s2' : Arith.sqrtK (9 / 2 : B64) = F.fin (4776788754394329 / 2251799813685248) := s2
theorem s3' : Arith.sqrtK (7599824371187711 / 1125899906842624 : B64) =
    F.fin (5850347528665471 / 2251799813685248) := s3
theorem s4' : Arith.sqrtK (5066549580791807 / 562949953421312 : B64) =
    F.fin (6755399441055743 / 2251799813685248) := s4
theorem q2' : Arith.rnd (4776788754394329 / 2251799813685248 * (4776788754394329 / 2251799813685248) : B64) =
    F.fin (5066549580791807 / 1125899906842624) := q2
theorem q3' : Arith.rnd (5850347528665471 / 2251799813685248 * (5850347528665471 / 2251799813685248) : B64) =
    F.fin (7599824371187710 / 1125899906842624) := q3

theorem root (y : ℝ) (h : 0 ≤ y) (hy : rnd y = F.fin y) : rnd (Real.sqrt (y * y)) = F.fin y := by
  rw [Real.sqrt_mul_self h, hy]
/-- A perfect square has an exact rounded root. -/
theorem root' (y : B64) (h : 0 ≤ y) (hy : Arith.rnd y = F.fin y) : Arith.sqrtK (y * y) = F.fin y :=
  root y h hy

theorem next {a q t s : B64} (ha : Arith.rnd (a * a) = F.fin q) (hs : Arith.rnd (9 / 4 + q) = F.fin t)
    (ht : 0 ≤ t) (hr : Arith.sqrtK t = F.fin s) :
    CylGeom.nextRadius (F.fin (3 : B64)) 4 (F.fin a) = F.fin s := by
  unfold CylGeom.nextRadius
  have h4 : (F.ofNat 4 : F B64) = F.fin 4 := by rw [F.ofNat_eq 4 (by norm_num)]; norm_num
  rw [mul_fin, mul_fin, ha, val (x := (3 : B64) * 3) 9 0 (by norm_num) (by norm_num) (by norm_num),
    h4, div_fin_ne _ (by norm_num),
    val (x := (3 : B64) * 3 / 4) 9 2 (by norm_num) (by norm_num) (by norm_num)]
  rw [show ((3 : B64) * 3 / 4) = 9 / 4 by norm_num, add_fin, hs]
  unfold F.sqrt
  dsimp only
  rw [if_neg (not_lt.2 ht), hr]

theorem r1 : CylGeom.nextRadius (F.fin (3 : B64)) 4 0 = F.fin (3 / 2) := by
  refine next (a := 0) (q := 0) (t := 9 / 4) ?_ ?_ (by norm_num) ?_
  · rw [mul_zero]; exact val 0 0 (by norm_num) (by norm_num) (by norm_num)
  · rw [add_zero]; exact val 9 2 (by norm_num) (by norm_num) (by norm_num)
  · rw [show (9 / 4 : B64) = 3 / 2 * (3 / 2) by norm_num]
    exact root' _ (by norm_num) (val 3 1 (by norm_num) (by norm_num) (by norm_num))

theorem r2 : CylGeom.nextRadius (F.fin (3 : B64)) 4 (F.fin (3 / 2)) =
    F.fin (4776788754394329 / 2251799813685248) := by
  refine next (q := 9 / 4) (t := 9 / 2) ?_ ?_ (by norm_num) s2'
  · rw [show (3 / 2 * (3 / 2) : B64) = 9 / 4 by norm_num]
    exact val 9 2 (by norm_num) (by norm_num) (by norm_num)
  · rw [show (9 / 4 + 9 / 4 : B64) = 9 / 2 by norm_num]
    exact val 9 1 (by norm_num) (by norm_num) (by norm_num)

theorem r3 : CylGeom.nextRadius (F.fin (3 : B64)) 4 (F.fin (4776788754394329 / 2251799813685248)) =
    F.fin (5850347528665471 / 2251799813685248) := by
  refine next q2' (t := 7599824371187711 / 1125899906842624) ?_ (by norm_num) s3'
  rw [show (9 / 4 + 5066549580791807 / 1125899906842624 : B64) = 7599824371187711 / 1125899906842624 by norm_num]
  exact val 7599824371187711 50 (by norm_num) (by norm_num) (by norm_num)

theorem r4 : CylGeom.nextRadius (F.fin (3 : B64)) 4 (F.fin (5850347528665471 / 2251799813685248)) =
    F.fin (6755399441055743 / 2251799813685248) := by
  refine next q3' (t := 5066549580791807 / 562949953421312) ?_ (by norm_num) s4'
  rw [show (9 / 4 + 7599824371187710 / 1125899906842624 : B64) = 5066549580791807 / 562949953421312 by norm_num]
  exact val 5066549580791807 49 (by norm_num) (by norm_num) (by norm_num)

end B64

/-- The box `[-3,3] × [-3,3] × [0,1]`. -/
noncomputable def badLim : Limits B64 := finLimits (K := B64) ![-3, -3, 0] ![3, 3, 1]

theorem badLim_mid : CylGeom.mid ((F.fin (-3) : F B64), F.fin 3) = F.fin 0 := by
  unfold CylGeom.mid
  have h2 : (F.ofNat 2 : F B64) = F.fin 2 := by rw [F.ofNat_eq 2 (by norm_num)]; norm_num
  rw [add_fin, show (-3 + 3 : B64) = 0 by norm_num, F.rnd_zero, h2, div_fin_ne _ (by norm_num), zero_div, F.rnd_zero]

theorem badLim_half : CylGeom.halfWidth ((F.fin (-3) : F B64), F.fin 3) (F.fin 0) = F.fin 3 := by
  unfold CylGeom.halfWidth
  have h3 : Arith.rnd (3 : B64) = F.fin 3 := B64.val 3 0 (by norm_num) (by norm_num) (by norm_num)
  dsimp only
  rw [F.sub_fin, F.sub_fin, sub_zero, sub_zero, LawfulArith.rnd_neg, h3]
  simp [F.abs]

theorem badLim_radius : CylGeom.outerRadius badLim = F.fin 3 := by
  have h0 : badLim 0 = (F.fin (-3), F.fin 3) := rfl
  have h1 : badLim 1 = (F.fin (-3), F.fin 3) := rfl
  unfold CylGeom.outerRadius
  simp [h0, h1, badLim_mid, badLim_half]

theorem badLim_r : (CylGeom.new ![4, 1, 1] badLim).toCylindrical (finPos (K := B64) ![3, 0, 0]) 0 = F.fin 3 := by
  have hc0 : (CylGeom.new ![4, 1, 1] badLim).center 0 = F.fin 0 := badLim_mid
  have hc1 : (CylGeom.new ![4, 1, 1] badLim).center 1 = F.fin 0 := badLim_mid
  have h3 : Arith.rnd (3 : B64) = F.fin 3 := B64.val 3 0 (by norm_num) (by norm_num) (by norm_num)
  have h9 : Arith.rnd (9 : B64) = F.fin 9 := B64.val 9 0 (by norm_num) (by norm_num) (by norm_num)
  unfold CylGeom.toCylindrical
  rw [hc0, hc1]
  change (((F.fin 3 - F.fin 0) * (F.fin 3 - F.fin 0) + (F.fin 0 - F.fin 0) * (F.fin 0 - F.fin 0) : F B64)).sqrt = _
  rw [F.sub_fin, F.sub_fin, sub_zero, sub_zero, h3, F.rnd_zero, mul_fin, mul_fin,
    show (3 * 3 : B64) = 9 by norm_num, h9, mul_zero, F.rnd_zero, add_fin, add_zero, h9]
  unfold F.sqrt
  dsimp only
  rw [if_neg (by norm_num), show (9 : B64) = 3 * 3 by norm_num]
  exact B64.root' _ (by norm_num) h3

/-- **C20 is false in binary64**: a position that `is_inside` accepts, on which `cell_id` panics. -/
theorem C20_false :
    (CylGeom.new ![4, 1, 1] badLim).isInside (finPos (K := B64) ![3, 0, 0]) = true ∧
    (CylGeom.new ![4, 1, 1] badLim).cellId (finPos (K := B64) ![3, 0, 0]) = .error .explicit := by
  have hR : (CylGeom.new ![4, 1, 1] badLim).radius = F.fin 3 := badLim_radius
  constructor
  · unfold CylGeom.isInside
    simp only [Bool.and_eq_true, decide_eq_true_eq]
    refine ⟨⟨?_, ?_⟩, ?_⟩
    · rw [badLim_r, hR]; exact (F.le_fin _ _).2 le_rfl
    · have hc0 : (CylGeom.new ![4, 1, 1] badLim).center 0 = F.fin 0 := badLim_mid
      have hc1 : (CylGeom.new ![4, 1, 1] badLim).center 1 = F.fin 0 := badLim_mid
      have h3 : Arith.rnd (3 : B64) = F.fin 3 := B64.val 3 0 (by norm_num) (by norm_num) (by norm_num)
      have : (CylGeom.new ![4, 1, 1] badLim).toCylindrical (finPos (K := B64) ![3, 0, 0]) 1 =
          Arith.atan2K 0 3 := by
        unfold CylGeom.toCylindrical
        rw [hc0, hc1]
        change F.atan2 (F.fin 0 - F.fin 0) (F.fin 3 - F.fin 0) = _
        rw [F.sub_fin, F.sub_fin, sub_zero, sub_zero, h3, F.rnd_zero]; rfl
      rw [this]
      obtain ⟨t, h1, h2, h3⟩ := LawfulArith.atan2_range (0 : B64) 3
      rw [h1]
      exact ⟨(F.le_fin _ _).2 h2, (F.le_fin _ _).2 h3⟩
    · exact ⟨(F.le_fin _ _).2 le_rfl, (F.le_fin _ _).2 zero_le_one⟩
  · apply C20_beyond_panics
    rw [badLim_r]
    have hrp : (CylGeom.new ![4, 1, 1] badLim).rpositions = CylGeom.shells (F.fin 3) 4 4 0 := by
      change CylGeom.shells (CylGeom.outerRadius badLim) 4 4 0 = _
      rw [badLim_radius]
    rw [hrp]
    simp only [CylGeom.shells, B64.r1, B64.r2, B64.r3, B64.r4]
    intro s hs
    simp only [List.mem_cons, List.not_mem_nil, or_false] at hs
    rintro ⟨_, h⟩
    rcases hs with rfl | rfl | rfl | rfl <;> rw [F.le_fin] at h <;> norm_num at h

end Up4
