import Verif.Binary64
import Verif.Core

set_option linter.unusedSectionVars false

/-!
# The error of a rounded operation

`RoundedArith` states how far a rounded result is from the exact one: the standard model of floating-point arithmetic, with gradual underflow. Binary64 arithmetic
satisfies it (`B64`), and so does exact arithmetic (`ℝ`).
-/

namespace Up4
open F

/-- The unit roundoff of binary64, `2^-53`. -/
def roundoff (K : Type) [Field K] : K := 1 / 2 ^ 53
/-- Half the smallest positive binary64 number, `2^-1075`. -/
def tiny (K : Type) [Field K] : K := 1 / 2 ^ 1075
/-- A bound below which nothing overflows, `2^1023`. -/
def huge (K : Type) [Field K] : K := 2 ^ 1023

/-- A number that an `f64` can hold. -/
def IsDouble {K : Type} [Arith K] (x : K) : Prop := Arith.rnd x = fin x

/-- The standard model of floating-point arithmetic. -/
class RoundedArith (K : Type) [Field K] [LinearOrder K] [IsStrictOrderedRing K] [Arith K] : Prop where
  rnd_err : ∀ x y : K, Arith.rnd x = fin y → |y - x| ≤ roundoff K * |x| + tiny K
  add_err : ∀ a b y : K, IsDouble a → IsDouble b → Arith.rnd (a + b) = fin y → |y - (a + b)| ≤ roundoff K * |a + b|
  rnd_finite : ∀ x : K, |x| ≤ huge K → ∃ y, Arith.rnd x = fin y
  sqrt_err : ∀ s y : K, 0 ≤ s → Arith.sqrtK (s * s) = fin y → |y - s| ≤ roundoff K * s + tiny K
  sqrt_finite : ∀ s : K, 0 ≤ s → s ≤ huge K → ∃ y, Arith.sqrtK (s * s) = fin y
  sqrt_double : ∀ x y : K, Arith.sqrtK x = fin y → IsDouble y
  root : ∀ x : K, 0 ≤ x → ∃ s, 0 ≤ s ∧ s * s = x

section facts
variable {K : Type} [Field K] [LinearOrder K] [IsStrictOrderedRing K]
theorem roundoff_pos : 0 < roundoff K := by unfold roundoff; positivity
theorem tiny_pos : 0 < tiny K := by unfold tiny; positivity
theorem huge_pos : 0 < huge K := by unfold huge; positivity
theorem roundoff_le : roundoff K ≤ 1 / 16 := by
  unfold roundoff
  exact one_div_le_one_div_of_le (by norm_num) (by norm_num)
end facts

instance : RoundedArith ℝ where
  rnd_err x y h := by
    cases h
    rw [sub_self, abs_zero]
    exact add_nonneg (mul_nonneg roundoff_pos.le (abs_nonneg _)) tiny_pos.le
  add_err a b y _ _ h := by
    cases h
    rw [sub_self, abs_zero]
    exact mul_nonneg roundoff_pos.le (abs_nonneg _)
  rnd_finite x _ := ⟨x, rfl⟩
  sqrt_err s y hs h := by
    change F.fin (Real.sqrt (s * s)) = F.fin y at h
    rw [Real.sqrt_mul_self hs] at h
    cases h
    rw [sub_self, abs_zero]
    exact add_nonneg (mul_nonneg roundoff_pos.le hs) tiny_pos.le
  sqrt_finite s _ _ := ⟨_, rfl⟩
  sqrt_double _ _ _ := rfl
  root x h := ⟨Real.sqrt x, Real.sqrt_nonneg x, Real.mul_self_sqrt h⟩

namespace B64

theorem rne_err (t : ℝ) : |(rne t : ℝ) - t| ≤ 1 / 2 := by
  have h := Int.floor_add_fract t
  have h0 := Int.fract_nonneg t
  have h1 := Int.fract_lt_one t
  unfold rne
  rw [abs_le]
  split_ifs <;> push_cast <;> constructor <;> linarith

theorem rpos_err (x : ℝ) : |rpos x - x| ≤ 2 ^ ulpExp x / 2 := by
  have hz := zp (ulpExp x)
  have e : rpos x - x = (rne (x / 2 ^ ulpExp x) - x / 2 ^ ulpExp x) * 2 ^ ulpExp x := by
    unfold rpos
    rw [sub_mul, div_mul_cancel₀ _ hz.ne']
  rw [e, abs_mul, abs_of_pos hz]
  have := mul_le_mul_of_nonneg_right (rne_err (x / 2 ^ ulpExp x)) hz.le
  linarith

theorem tiny_eq : tiny ℝ = 2 ^ (-1075 : ℤ) := by
  unfold tiny
  rw [zpow_neg, one_div]; rfl

theorem ulp_half {x : ℝ} (hx : 0 < x) (h : -1022 ≤ Int.log 2 x) : (2 : ℝ) ^ ulpExp x / 2 ≤ roundoff ℝ * x := by
  have hu : ulpExp x = Int.log 2 x - 52 := by unfold ulpExp; omega
  have h1 := log_le hx
  rw [hu, zpow_sub₀ (by norm_num)]
  unfold roundoff
  norm_num at h1 ⊢
  linarith

theorem ulp_sub {x : ℝ} (h : Int.log 2 x ≤ -1022) : (2 : ℝ) ^ ulpExp x / 2 = tiny ℝ := by
  have hu : ulpExp x = -1074 := by unfold ulpExp; omega
  rw [hu, tiny_eq, show (-1074 : ℤ) = -1075 + 1 by norm_num, zpow_add₀ (by norm_num), zpow_one]
  ring

theorem rpos_err' {x : ℝ} (hx : 0 < x) : |rpos x - x| ≤ roundoff ℝ * x + tiny ℝ := by
  refine (rpos_err x).trans ?_
  have h1 := tiny_pos (K := ℝ)
  have h2 : 0 < roundoff ℝ * x := mul_pos roundoff_pos hx
  rcases le_total (-1022) (Int.log 2 x) with h | h
  · have := ulp_half hx h; linarith
  · rw [ulp_sub h]; linarith

/-- Reduction to positive numbers. -/
theorem rnd_cases {x y : ℝ} (h : rnd x = F.fin y) : (x = 0 ∧ y = 0) ∨ (0 < x ∧ y = rpos x) ∨ (x < 0 ∧ y = -rpos (-x)) := by
  unfold rnd at h
  split_ifs at h with h0 h1
  · left; exact ⟨h0, by cases h; rfl⟩
  · right; left
    unfold rndPos at h
    split_ifs at h
    exact ⟨h1, by cases h; rfl⟩
  · right; right
    have hx : x < 0 := lt_of_le_of_ne (not_lt.1 h1) h0
    unfold rndPos at h
    split_ifs at h
    · exact absurd h (by simp [F.neg])
    · exact ⟨hx, by simp [F.neg] at h; linarith⟩

theorem rnd_err {x y : ℝ} (h : rnd x = F.fin y) : |y - x| ≤ roundoff ℝ * |x| + tiny ℝ := by
  rcases rnd_cases h with ⟨rfl, rfl⟩ | ⟨hx, rfl⟩ | ⟨hx, rfl⟩
  · have := tiny_pos (K := ℝ); simp; linarith
  · rw [abs_of_pos hx]; exact rpos_err' hx
  · have := rpos_err' (x := -x) (by linarith)
    rw [abs_of_neg hx, show -rpos (-x) - x = -(rpos (-x) - -x) by ring, abs_neg]; exact this

/-- Every finite binary64 number is an integer multiple of the smallest one. -/
theorem multiple {x : ℝ} (h : rnd x = F.fin x) : ∃ z : ℤ, x = z * 2 ^ (-1074 : ℤ) := by
  have pos : ∀ x : ℝ, 0 < x → rpos x = x → ∃ z : ℤ, x = z * 2 ^ (-1074 : ℤ) := by
    intro x hx e
    obtain ⟨m, k, _, hk, hm⟩ := rpos_form hx
    obtain ⟨d, rfl⟩ : ∃ d : ℕ, k = -1074 + d := ⟨(k + 1074).toNat, by omega⟩
    refine ⟨m * 2 ^ d, ?_⟩
    rw [← e, hm, zpow_add₀ (by norm_num)]
    push_cast
    rw [zpow_natCast]
    ring
  rcases rnd_cases h with ⟨rfl, _⟩ | ⟨hx, e⟩ | ⟨hx, e⟩
  · exact ⟨0, by simp⟩
  · exact pos x hx e.symm
  · obtain ⟨z, hz⟩ := pos (-x) (by linarith) (by linarith)
    exact ⟨-z, by push_cast; linarith⟩

theorem rpos_err_multiple {x : ℝ} (hx : 0 < x) (z : ℤ) (hz : x = z * 2 ^ (-1074 : ℤ)) : |rpos x - x| ≤ roundoff ℝ * x := by
  rcases le_total (-1022) (Int.log 2 x) with h | h
  · exact (rpos_err x).trans (ulp_half hx h)
  · have hu : ulpExp x = -1074 := by unfold ulpExp; omega
    have : rpos x = x := by
      unfold rpos
      rw [hu, hz, mul_div_cancel_right₀ _ (zp _).ne', rne_int]
    rw [this, sub_self, abs_zero]
    exact mul_nonneg roundoff_pos.le hx.le

theorem add_err {a b y : ℝ} (ha : rnd a = F.fin a) (hb : rnd b = F.fin b) (h : rnd (a + b) = F.fin y) :
    |y - (a + b)| ≤ roundoff ℝ * |a + b| := by
  obtain ⟨z, hz⟩ := multiple ha
  obtain ⟨w, hw⟩ := multiple hb
  have hs : a + b = ((z + w : ℤ) : ℝ) * 2 ^ (-1074 : ℤ) := by
    conv_lhs => rw [hz, hw]
    push_cast; ring
  rcases rnd_cases h with ⟨h0, rfl⟩ | ⟨hx, rfl⟩ | ⟨hx, rfl⟩
  · rw [h0]; simp
  · rw [abs_of_pos hx]; exact rpos_err_multiple hx _ hs
  · have := rpos_err_multiple (x := -(a + b)) (by linarith) (-(z + w)) (by rw [hs]; push_cast; ring)
    rw [abs_of_neg hx, show -rpos (-(a + b)) - (a + b) = -(rpos (-(a + b)) - -(a + b)) by ring, abs_neg]; exact this

theorem rnd_finite {x : ℝ} (h : |x| ≤ huge ℝ) : ∃ y, rnd x = F.fin y := by
  have hh : huge ℝ = 2 ^ (1023 : ℤ) := by unfold huge; rfl
  have pos : ∀ x : ℝ, 0 < x → x ≤ huge ℝ → rpos x < 2 ^ (1024 : ℤ) := by
    intro x hx hle
    have h1 := rpos_mono hx hle
    have h2 : rpos (huge ℝ) = huge ℝ := by
      have := rpos_exact (m := 1) (k := 1023) (by norm_num) (by norm_num) (by norm_num)
      rw [Nat.cast_one, one_mul] at this
      rw [hh]; exact this
    rw [h2, hh] at h1
    exact lt_of_le_of_lt h1 (zpow_lt_zpow_right₀ (by norm_num) (by norm_num))
  rw [abs_le] at h
  rcases lt_trichotomy x 0 with hx | hx | hx
  · have := pos (-x) (by linarith) (by linarith)
    refine ⟨-rpos (-x), ?_⟩
    unfold rnd rndPos
    rw [if_neg hx.ne, if_neg (by linarith), if_neg (not_le.2 this)]; rfl
  · exact ⟨0, by unfold rnd; rw [if_pos hx]⟩
  · have := pos x hx h.2
    refine ⟨rpos x, ?_⟩
    unfold rnd rndPos
    rw [if_neg hx.ne', if_pos hx, if_neg (not_le.2 this)]

theorem sqrt_err {s y : ℝ} (hs : 0 ≤ s) (h : rnd (Real.sqrt (s * s)) = F.fin y) : |y - s| ≤ roundoff ℝ * s + tiny ℝ := by
  rw [Real.sqrt_mul_self hs] at h
  have := rnd_err h
  rwa [abs_of_nonneg hs] at this

theorem sqrt_finite {s : ℝ} (hs : 0 ≤ s) (h : s ≤ huge ℝ) : ∃ y, rnd (Real.sqrt (s * s)) = F.fin y := by
  rw [Real.sqrt_mul_self hs]
  exact rnd_finite (by rwa [abs_of_nonneg hs])

end B64

theorem B64.has_root {x : ℝ} (h : 0 ≤ x) : ∃ s : ℝ, 0 ≤ s ∧ s * s = x := ⟨Real.sqrt x, Real.sqrt_nonneg x, Real.mul_self_sqrt h⟩

instance : RoundedArith B64 where
  rnd_err _ _ h := B64.rnd_err h
  add_err _ _ _ ha hb h := B64.add_err ha hb h
  rnd_finite _ h := B64.rnd_finite h
  sqrt_err _ _ hs h := B64.sqrt_err hs h
  sqrt_finite _ hs h := B64.sqrt_finite hs h
  sqrt_double _ _ h := B64.rnd_idem h
  root _ h := B64.has_root h

end Up4
