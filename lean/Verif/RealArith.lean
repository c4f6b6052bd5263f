import Verif.Float
import Mathlib.Analysis.SpecialFunctions.Complex.Arg
import Mathlib.Analysis.SpecialFunctions.Trigonometric.Basic
import Mathlib.Analysis.Real.Sqrt

/-!
# Exact real arithmetic

The instance of `Arith` on `ℝ` without rounding, with the true square root and trigonometric
functions.  It satisfies both `ExactArith` and `LawfulArith`, so neither class is empty.
-/

namespace Up4

noncomputable instance : Arith ℝ where
  rnd := F.fin
  sqrtK x := F.fin (Real.sqrt x)
  sinK x := F.fin (Real.sin x)
  cosK x := F.fin (Real.cos x)
  atan2K y x := F.fin (Complex.arg ⟨x, y⟩)
  piK := Real.pi
  maxK := (2 ^ 53 - 1) * 2 ^ 971

instance : LawfulArith ℝ where
  rnd_ne_nan _ h := by cases h
  rnd_mono x y h := by simpa [Arith.rnd] using h
  rnd_neg x := rfl
  rnd_idem x y _ := rfl
  rnd_dyadic m k _ _ := rfl
  sqrt_nonneg x _ := by simp [Arith.sqrtK]
  sqrt_mono x y _ h := by simpa [Arith.sqrtK] using Real.sqrt_le_sqrt h
  sqrt_zero := by simp [Arith.sqrtK]
  pi_pos := Real.pi_pos
  pi_le := Real.pi_le_four
  max_pos := by change (0 : ℝ) < (2 ^ 53 - 1) * 2 ^ 971; exact mul_pos (by norm_num) (pow_pos (by norm_num) _)
  atan2_range y x := ⟨_, rfl, (Complex.neg_pi_lt_arg _).le, Complex.arg_le_pi _⟩

instance : ExactArith ℝ where
  rnd_eq x := rfl
  sqrt_eq x h := ⟨_, rfl, Real.sqrt_nonneg x, Real.mul_self_sqrt h⟩
  sin_cos t := ⟨_, _, rfl, rfl, by have := Real.sin_sq_add_cos_sq t; nlinarith⟩
  sin_zero := by simp [Arith.sinK]
  cos_zero := by simp [Arith.cosK]
  pi_pos' := Real.pi_pos
  atan2_range' y x := ⟨_, rfl, (Complex.neg_pi_lt_arg _).le, Complex.arg_le_pi _⟩
  atan2_spec y x t s c ht hs hc r hr hrr := by
    simp only [Arith.atan2K, Arith.sinK, Arith.cosK, F.fin.injEq] at ht hs hc
    subst ht hs hc
    have hn : ‖(⟨x, y⟩ : ℂ)‖ = r := by
      have h1 : ‖(⟨x, y⟩ : ℂ)‖ ^ 2 = r ^ 2 := by
        rw [← Complex.normSq_eq_norm_sq, Complex.normSq_mk]; nlinarith
      exact (pow_left_inj₀ (norm_nonneg _) hr (by norm_num)).1 h1
    constructor
    · have := Complex.norm_mul_cos_arg (⟨x, y⟩ : ℂ); rw [hn] at this; exact this.symm
    · have := Complex.norm_mul_sin_arg (⟨x, y⟩ : ℂ); rw [hn] at this; exact this.symm

end Up4
