import Verif.Model.SaveFig
import Verif.Rounding
import Verif.RealArith
import Verif.Binary64

set_option linter.unusedSectionVars false

/-! # C140: saved figures have the resolution asked for -/

namespace Up4
open F

variable {K : Type} [Field K] [LinearOrder K] [IsStrictOrderedRing K] [FloorRing K] [Arith K]

/-- One rounded operation, for results between `2^-600` and `2^600`. -/
theorem rounded_near [LawfulArith K] [RoundedArith K] {x : K} (h1 : 1 / 2 ^ 600 ≤ x) (h2 : x ≤ 2 ^ 600) : ∃ y, Arith.rnd x = fin y ∧ |y - x| ≤ 2 * roundoff K * x := by
  have hx : 0 < x := lt_of_lt_of_le (by positivity) h1
  obtain ⟨y, hy⟩ := RoundedArith.rnd_finite x (by
    rw [abs_of_pos hx]
    refine h2.trans ?_
    unfold huge
    exact pow_le_pow_right₀ (by norm_num) (by norm_num))
  refine ⟨y, hy, ?_⟩
  have := RoundedArith.rnd_err x y hy
  rw [abs_of_pos hx] at this
  have ht : tiny K ≤ roundoff K * x := by
    refine le_trans ?_ (mul_le_mul_of_nonneg_left h1 roundoff_pos.le)
    unfold tiny roundoff
    rw [one_div_mul_one_div, ← pow_add]
    exact one_div_le_one_div_of_le (by positivity) (pow_le_pow_right₀ (by norm_num) (by norm_num))
  linarith

/-- A quotient of numbers known up to relative errors. -/
theorem ratio_near {e₁ e₂ a b A B : K} (h1 : 0 ≤ e₁) (h2 : 0 ≤ e₂) (h2' : e₂ ≤ 1 / 16) (hA : 0 < A) (hB : 0 < B) (ha : |a - A| ≤ e₁ * A) (hb : |b - B| ≤ e₂ * B) :
    0 < b ∧ |a / b - A / B| ≤ 16 / 15 * (e₁ + e₂) * (A / B) := by
  have hb' := abs_le.1 hb
  have hb1 : 15 / 16 * B ≤ b := by nlinarith
  have hb0 : 0 < b := by linarith
  refine ⟨hb0, ?_⟩
  have e : a / b - A / B = ((a - A) * B - A * (b - B)) / (b * B) := by field_simp; ring
  rw [e, abs_div, abs_of_pos (mul_pos hb0 hB), div_le_iff₀ (mul_pos hb0 hB)]
  have hn : |(a - A) * B - A * (b - B)| ≤ (e₁ + e₂) * (A * B) := by
    refine (abs_sub _ _).trans ?_
    rw [abs_mul, abs_mul, abs_of_pos hB, abs_of_pos hA]
    have x1 := mul_le_mul_of_nonneg_right ha hB.le
    have x2 := mul_le_mul_of_nonneg_left hb hA.le
    linarith
  refine hn.trans ?_
  have : 16 / 15 * (e₁ + e₂) * (A / B) * (b * B) = (e₁ + e₂) * (A * (16 / 15 * b)) := by field_simp
  rw [this]
  refine mul_le_mul_of_nonneg_left (mul_le_mul_of_nonneg_left (by linarith) hA.le) (by linarith)

/-- Rounding a number that is itself known up to a relative error. -/
theorem round_near {e u y x X : K} (hu : 0 ≤ u) (hx : |x - X| ≤ e * X) (hy : |y - x| ≤ u * x) : |y - X| ≤ (e + u * (1 + e)) * X := by
  have hx' := abs_le.1 hx
  have : u * x ≤ u * ((1 + e) * X) := mul_le_mul_of_nonneg_left (by linarith) hu
  have t := abs_sub_le y x X
  linarith

theorem ofInt_pos [LawfulArith K] {z : ℤ} (h0 : 0 ≤ z) (h1 : z ≤ 2 ^ 53) : (ofInt z : F K) = fin (z : K) := by
  lift z to ℕ using h0
  unfold ofInt
  rw [Int.cast_natCast, F.rnd_nat]
  exact_mod_cast h1

/-- The width of a figure in pixels: 700 if none is set (plotly's default). -/
def figureWidth (width : Option K) : K := width.getD 700

/-- The width between the margins of the paper in inches (25.4 mm each). -/
def printedInches (K : Type) [Field K] (border paper : ℤ) : K := ((paper - 2 * border : ℤ) : K) / (254 / 10)

/-- **C140, the resolution.** Without rounding, the saved image is exactly as many pixels wide as the width between the margins, in inches, times `dpi`: printed over that
width it has the resolution asked for, whatever the width of the figure. -/
theorem C140_exact [ExactArith K] (width : Option K) (hw : figureWidth width ≠ 0) (dpi border paper : ℤ) (hd : dpi ≠ 0) :
    ∃ s, saveScale (width.map fin) dpi border paper = .ok (fin s) ∧ s * figureWidth width = dpi * printedInches K border paper := by
  have hd' : (dpi : K) ≠ 0 := Int.cast_ne_zero.2 hd
  have hp : (width.map fin).getD (F.ofNat 700) = (fin (figureWidth width) : F K) := by
    cases width with
    | none => exact F.eofNat 700
    | some w => rfl
  have hi : ∀ z : ℤ, (ofInt z : F K) = fin (z : K) := fun z => ExactArith.rnd_eq _
  have hq : figureWidth width / (dpi : K) ≠ 0 := div_ne_zero hw hd'
  unfold saveScale
  dsimp only
  rw [if_neg hd, hp, hi, hi, F.elit, F.ediv _ hd', F.ediv _ (by norm_num : (254 / 10 : K) ≠ 0), F.ediv _ hq, if_neg]
  · refine ⟨_, rfl, ?_⟩
    unfold printedInches
    field_simp
  · rw [F.zero_def]
    simpa [F.eqB] using hq

/-- Case for `C140_exact`: the defaults; a figure of 700 pixels, 170 mm between the margins, 600 dots per inch. -/
example : ∃ s, saveScale (K := ℝ) none 600 20 210 = .ok (fin s) ∧ s * 700 = 600 * (170 / (254 / 10)) := by
  obtain ⟨s, e, h⟩ := C140_exact (K := ℝ) none (by norm_num [figureWidth]) 600 20 210 (by norm_num)
  refine ⟨s, e, ?_⟩
  simpa [figureWidth, printedInches] using h

theorem scale_error (u : K) (hu : 0 < u) (h16 : u ≤ 1 / 64) :
    (16 / 15 * ((16 / 15 * (0 + 2 * u) + 2 * u * (1 + 16 / 15 * (0 + 2 * u))) + 2 * u)) + 2 * u * (1 + 16 / 15 * ((16 / 15 * (0 + 2 * u) + 2 * u * (1 + 16 / 15 * (0 + 2 * u))) + 2 * u)) ≤ 16 * u := by
  nlinarith [mul_pos hu hu, mul_pos (mul_pos hu hu) hu, mul_nonneg hu.le (sub_nonneg.2 h16), mul_nonneg (mul_pos hu hu).le (sub_nonneg.2 h16)]

set_option maxHeartbeats 1000000 in
/-- **C140, in binary64 arithmetic.** For figures at least one pixel wide and margins that leave something of the paper (all numbers at most `2^53`), the image is as wide
up to a relative error of `2^-49`; the factor is positive. -/
theorem C140_rounded [LawfulArith K] [RoundedArith K] (width : Option K) (h1 : 1 ≤ figureWidth width) (h2 : figureWidth width ≤ 2 ^ 53) (dpi border paper : ℤ) (hd : 0 < dpi)
    (hd2 : dpi ≤ 2 ^ 53) (ha : 0 < paper - 2 * border) (ha2 : paper - 2 * border ≤ 2 ^ 53) :
    ∃ s, saveScale (width.map fin) dpi border paper = .ok (fin s) ∧ 0 < s ∧
      |s * figureWidth width - dpi * printedInches K border paper| ≤ 1 / 2 ^ 49 * (dpi * printedInches K border paper) := by
  have hp : (width.map fin).getD (F.ofNat 700) = (fin (figureWidth width) : F K) := by
    cases width with
    | none =>
      change F.ofNat 700 = fin (700 : K)
      rw [F.ofNat_eq 700 (by norm_num)]
      norm_num
    | some w => rfl
  have hu := roundoff_pos (K := K)
  have hu16 : roundoff K ≤ 1 / 64 := by unfold roundoff; exact one_div_le_one_div_of_le (by norm_num) (by norm_num)
  have hb : (16 : K) * roundoff K = 1 / 2 ^ 49 := by unfold roundoff; norm_num
  unfold saveScale printedInches
  dsimp only
  rw [if_neg hd.ne', hp, ofInt_pos hd.le hd2, ofInt_pos ha.le ha2]
  have d1 : (1 : K) ≤ (dpi : K) := by exact_mod_cast (by omega : (1 : ℤ) ≤ dpi)
  have d2 : (dpi : K) ≤ 2 ^ 53 := by exact_mod_cast hd2
  have a1 : (1 : K) ≤ ((paper - 2 * border : ℤ) : K) := by exact_mod_cast (by omega : (1 : ℤ) ≤ paper - 2 * border)
  have a2 : ((paper - 2 * border : ℤ) : K) ≤ 2 ^ 53 := by exact_mod_cast ha2
  generalize ((paper - 2 * border : ℤ) : K) = A at a1 a2 ⊢
  generalize (dpi : K) = D at d1 d2 ⊢
  generalize figureWidth width = W at h1 h2 ⊢
  generalize hP : (2 : K) ^ 53 = P at h2 d2 a2
  have hP1 : (100 : K) ≤ P := by rw [← hP]; norm_num
  have hbig : ∀ x : K, 1 ≤ x * (100 * (P * P)) → x ≤ 4 * (P * P) → 1 / 2 ^ 600 ≤ x ∧ x ≤ 2 ^ 600 := by
    intro x hx1 hx2
    subst hP
    constructor
    · refine le_trans ?_ ((div_le_iff₀ (by positivity)).2 hx1)
      apply one_div_le_one_div_of_le (by positivity)
      calc (100 : K) * (2 ^ 53 * 2 ^ 53) ≤ 2 ^ 7 * (2 ^ 53 * 2 ^ 53) := by
            refine mul_le_mul_of_nonneg_right (by norm_num) (by positivity)
        _ = 2 ^ 113 := by rw [← pow_add, ← pow_add]
        _ ≤ 2 ^ 600 := pow_le_pow_right₀ (by norm_num) (by norm_num)
    · refine hx2.trans ?_
      calc (4 : K) * (2 ^ 53 * 2 ^ 53) = 2 ^ 2 * (2 ^ 53 * 2 ^ 53) := by norm_num
        _ = 2 ^ 108 := by rw [← pow_add, ← pow_add]
        _ ≤ 2 ^ 600 := pow_le_pow_right₀ (by norm_num) (by norm_num)
  clear hP
  have hPP : 100 * P ≤ P * P := by nlinarith
  have hnear : ∀ x : K, 1 ≤ x * (100 * (P * P)) → x ≤ 4 * (P * P) → ∃ y, Arith.rnd x = fin y ∧ |y - x| ≤ 2 * roundoff K * x := by
    intro x hx1 hx2
    obtain ⟨c1, c2⟩ := hbig x hx1 hx2
    exact rounded_near c1 c2
  clear hbig
  generalize roundoff K = u at *
  have hPP1 : 1 ≤ P * P := by nlinarith
  have hlow : ∀ x : K, 1 ≤ x * 100 → 1 ≤ x * (100 * (P * P)) := by
    intro x hx
    have : x * 100 * 1 ≤ x * 100 * (P * P) := mul_le_mul_of_nonneg_left hPP1 (by linarith)
    linarith
  have hhigh : ∀ x : K, x ≤ P → x ≤ 4 * (P * P) := by
    intro x hx
    linarith
  have hA0 : 0 < A := by linarith
  have hD0 : 0 < D := by linarith
  have hW0 : 0 < W := by linarith
  -- 25.4
  obtain ⟨q, eq, nq⟩ := hnear (254 / 10) (hlow _ (by norm_num)) (hhigh _ (by linarith))
  obtain ⟨hq0, n1⟩ := ratio_near (a := A) (A := A) (e₁ := 0) le_rfl (by positivity) (by linarith) hA0 (by norm_num) (by simp) nq
  have hX : 0 < A / (254 / 10) := by positivity
  have n1' := abs_le.1 n1
  have hv : 16 / 15 * (0 + 2 * u) * (A / (254 / 10)) ≤ 1 / 16 * (A / (254 / 10)) := mul_le_mul_of_nonneg_right (by linarith) hX.le
  have hX1 : A / (254 / 10) * (254 / 10) = A := by field_simp
  obtain ⟨r1, e1, m1⟩ := hnear (A / q) (hlow _ (by linarith)) (hhigh _ (by linarith))
  have m1' := round_near (by positivity) n1 m1
  -- pixels
  have hY : 0 < W / D := by positivity
  have hYD : W / D * D = W := by field_simp
  have hY1 : W / D ≤ W := div_le_self hW0.le d1
  have hY2 : 1 ≤ W / D * P := by
    calc 1 ≤ W := h1
      _ = W / D * D := hYD.symm
      _ ≤ W / D * P := mul_le_mul_of_nonneg_left d2 hY.le
  obtain ⟨r2, e2, m2⟩ := hnear (W / D) (by
    have := mul_le_mul_of_nonneg_left hPP hY.le
    linarith) (hhigh _ (by linarith))
  generalize hE : 16 / 15 * (0 + 2 * u) + 2 * u * (1 + 16 / 15 * (0 + 2 * u)) = E at m1'
  have hE0 : 0 ≤ E := by rw [← hE]; positivity
  have hE1 : E ≤ 1 / 4 := by rw [← hE]; nlinarith
  obtain ⟨hr2, n3⟩ := ratio_near hE0 (by positivity) (by linarith) hX hY m1' m2
  have n3' := abs_le.1 n3
  have hZ : 0 < A / (254 / 10) / (W / D) := by positivity
  have hZ1 : A / (254 / 10) / (W / D) * (W / D) = A / (254 / 10) := by field_simp
  have hw : 16 / 15 * (E + 2 * u) * (A / (254 / 10) / (W / D)) ≤ 1 / 2 * (A / (254 / 10) / (W / D)) := mul_le_mul_of_nonneg_right (by linarith) hZ.le
  generalize A / (254 / 10) / (W / D) = Z at *
  generalize A / (254 / 10) = X at *
  generalize W / D = Y at *
  have hX2 : X ≤ P := by linarith
  have hX3 : 1 ≤ X * 100 := by linarith
  have hZ2 : Z ≤ X * P := by
    have : Z * 1 ≤ Z * (Y * P) := mul_le_mul_of_nonneg_left hY2 hZ.le
    calc Z = Z * 1 := (mul_one _).symm
      _ ≤ Z * (Y * P) := this
      _ = X * P := by rw [← mul_assoc, hZ1]
  have hZ3 : X ≤ Z * P := by
    rw [← hZ1]
    exact mul_le_mul_of_nonneg_left (by linarith) hZ.le
  have hXP : X * P ≤ P * P := mul_le_mul_of_nonneg_right hX2 (by linarith)
  have hZP : Z * P * 100 ≤ Z * (P * P) := by
    have := mul_le_mul_of_nonneg_left hPP hZ.le
    linarith
  obtain ⟨s, e3, m3⟩ := hnear (r1 / r2) (by
    have : 1 / 2 * Z ≤ r1 / r2 := by linarith
    have h' := mul_le_mul_of_nonneg_right this (by positivity : 0 ≤ 100 * (P * P))
    nlinarith) (by linarith)
  have m3' := round_near (by positivity) n3 m3
  have hfin := scale_error u hu hu16
  rw [hE] at hfin
  have hs := m3'.trans (mul_le_mul_of_nonneg_right hfin hZ.le)
  rw [hb] at hs
  have hs' := abs_le.1 hs
  have h49 : (1 : K) / 2 ^ 49 ≤ 1 / 2 := one_div_le_one_div_of_le (by norm_num) (by norm_num)
  generalize (1 : K) / 2 ^ 49 = ε at *
  have hεZ : ε * Z ≤ 1 / 2 * Z := mul_le_mul_of_nonneg_right h49 hZ.le
  refine ⟨s, ?_, by linarith, ?_⟩
  · have hWD : W / D = Y := by rw [← hYD]; field_simp
    unfold F.lit
    rw [eq, F.div_fin_ne _ hD0.ne', hWD, e2, F.div_fin_ne _ hq0.ne', e1, F.div_fin_ne _ hr2.ne', e3, if_neg]
    rw [F.zero_def]
    simpa [F.eqB] using hr2.ne'
  · have hDX : Z * W = D * X := by rw [← hYD, ← hZ1]; ring
    rw [← hDX, ← sub_mul, abs_mul, abs_of_pos hW0, ← mul_assoc]
    exact mul_le_mul_of_nonneg_right hs hW0.le

/-- Case for `C140_rounded`: the defaults in binary64 arithmetic: 170 mm are 4015.7 dots wide, up to a hundred-billionth. -/
example : ∃ s : B64, saveScale (K := B64) none 600 20 210 = .ok (fin s) ∧ 0 < s := by
  obtain ⟨s, e, h, -⟩ := C140_rounded (K := B64) none (by norm_num [figureWidth]) (by norm_num [figureWidth]) 600 20 210 (by norm_num) (by norm_num) (by norm_num) (by norm_num)
  exact ⟨s, e, h⟩

/-- **C140, margins.** If the margins take the whole paper or more, the factor is zero or negative, so that no image of the size asked for exists. -/
theorem C140_margins [ExactArith K] (width : Option K) (hw : 0 < figureWidth width) (dpi border paper : ℤ) (hd : 0 < dpi) (hm : paper ≤ 2 * border) :
    ∃ s, saveScale (width.map fin) dpi border paper = .ok (fin s) ∧ s ≤ 0 := by
  obtain ⟨s, e, h⟩ := C140_exact width hw.ne' dpi border paper hd.ne'
  refine ⟨s, e, ?_⟩
  have h1 : printedInches K border paper ≤ 0 := by
    unfold printedInches
    refine div_nonpos_of_nonpos_of_nonneg ?_ (by norm_num)
    exact_mod_cast (by omega : paper - 2 * border ≤ 0)
  have h2 : (0 : K) < dpi := by exact_mod_cast hd
  by_contra hs
  have := mul_pos (not_le.1 hs) hw
  rw [h] at this
  nlinarith

/-- Case for `C140_margins`: margins of 20 mm on paper of 30 mm. -/
example : ∃ s : ℝ, saveScale (K := ℝ) none 600 20 30 = .ok (fin s) ∧ s ≤ 0 := C140_margins none (by norm_num [figureWidth]) 600 20 30 (by norm_num) (by norm_num)

end Up4
