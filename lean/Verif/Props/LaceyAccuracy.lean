import Verif.Props.HomAccuracy
import Verif.Props.Lacey

set_option linter.unusedSectionVars false

/-!
# C156: accuracy of the Lacey index
-/

namespace Up4
open F
open Selector (at')

variable {K : Type} [Field K] [LinearOrder K] [IsStrictOrderedRing K] [FloorRing K] [Arith K]

theorem tiny_roundoff : tiny K ≤ roundoff K := by
  unfold tiny roundoff
  exact one_div_le_one_div_of_le (by positivity) (pow_le_pow_right₀ one_le_two (by norm_num))

/-- A rounded number no larger than 8: the absolute error. -/
theorem rnd_small [RoundedArith K] [LawfulArith K] (x b : K) (hx : |x| ≤ b) (hb : b ≤ 2 ^ 100) :
    ∃ y, Arith.rnd x = fin y ∧ IsDouble y ∧ |y - x| ≤ roundoff K * b + tiny K ∧ (0 ≤ x → 0 ≤ y) := by
  have hu := roundoff_pos (K := K)
  obtain ⟨y, hy⟩ := RoundedArith.rnd_finite x (hx.trans (hb.trans (pow_le_pow_right₀ one_le_two (by norm_num))))
  have h := RoundedArith.rnd_err x y hy
  refine ⟨y, hy, double_of_rnd hy, h.trans (by have := mul_le_mul_of_nonneg_left hx hu.le; linarith), fun h0 => ?_⟩
  have hm := LawfulArith.rnd_mono (0 : K) x h0
  rw [hy, show Arith.rnd (0 : K) = fin 0 from double_zero, F.le_fin] at hm
  exact hm

theorem rnd_unit [LawfulArith K] : Arith.rnd (1 : K) = fin 1 := by
  have := F.rnd_nat (K := K) 1 (by norm_num)
  rwa [Nat.cast_one] at this

theorem cells_bound (n : K) (h : 2 ≤ n) : n * (2 * n + 12) ≤ 4 * ((n + 6) * (n - 1)) := by nlinarith

theorem last_rounding (u t N i R d : K) (hu0 : 0 < u) (hu : u = 1 / 2 ^ 53) (ht : t ≤ u) (hN : N ≤ 2 ^ 50) (hi : 0 ≤ i) (hR : 1 / 2 ^ 48 ≤ R)
    (hd : d ≤ i + (N + 11 + 5 * i) * R) : u * d + t ≤ (1 + i) * R := by
  have hR0 : 0 < R := lt_of_lt_of_le (by positivity) hR
  have huR : u ≤ R / 32 := by
    rw [hu]
    have : (1 : K) / 2 ^ 53 = 1 / 2 ^ 48 / 32 := by norm_num
    linarith
  have h1 : u * d ≤ u * (i + (N + 11 + 5 * i) * R) := mul_le_mul_of_nonneg_left hd hu0.le
  have h2 : u * i ≤ R / 32 * i := mul_le_mul_of_nonneg_right huR hi
  have h3 : u * (N + 11) ≤ 1 / 4 := by
    rw [hu, one_div_mul_eq_div, div_le_iff₀ (by positivity)]
    have e : (1 : K) / 4 * 2 ^ 53 = 2 * 2 ^ 50 := by norm_num
    have : (11 : K) ≤ 2 ^ 50 := by norm_num
    rw [e]; linarith
  have h4 : u * 5 ≤ 1 / 16 := by
    rw [hu]; norm_num
  have h5 := mul_le_mul_of_nonneg_right h3 hR0.le
  have h6 := mul_le_mul_of_nonneg_right h4 (mul_nonneg hi hR0.le)
  have h7 : 0 ≤ i * R := mul_nonneg hi hR0.le
  nlinarith

/-- Square of the root of a number between 0 and 1. -/
theorem root_back [RoundedArith K] [LawfulArith K] (x : K) (h0 : 0 ≤ x) (h1 : x ≤ 1) :
    ∃ Y, F.sq (fin x).sqrt = fin Y ∧ IsDouble Y ∧ |Y - x| ≤ 9 * roundoff K := by
  have hu := roundoff_pos (K := K)
  have hu1 := roundoff_le (K := K)
  have ht := tiny_pos (K := K)
  have htu := tiny_roundoff (K := K)
  obtain ⟨s, s0, ss⟩ := RoundedArith.root x h0
  have s1 : s ≤ 1 := by
    by_contra h
    push Not at h
    nlinarith
  have hh : (1 : K) ≤ huge K := one_le_pow₀ one_le_two
  obtain ⟨r, hr⟩ := RoundedArith.sqrt_finite s s0 (s1.trans hh)
  have e := RoundedArith.sqrt_err s r s0 hr
  have e1 : |r - s| ≤ 2 * roundoff K := by
    have := mul_le_mul_of_nonneg_left s1 hu.le
    linarith
  have e2 : |r + s| ≤ 2 + 2 * roundoff K := by
    have := abs_le.1 e1
    rw [abs_le]; constructor <;> linarith
  have e3 : |r * r - x| ≤ 5 * roundoff K := by
    rw [← ss, show r * r - s * s = (r - s) * (r + s) by ring, abs_mul]
    have := mul_le_mul e1 e2 (abs_nonneg _) (by linarith)
    nlinarith
  have e4 : |r * r| ≤ 2 := by
    rw [abs_of_nonneg (mul_self_nonneg r)]
    have := abs_le.1 e3
    linarith
  obtain ⟨Y, y1, y2, y3, _⟩ := rnd_small (r * r) 2 e4 (by norm_num)
  refine ⟨Y, ?_, y2, ?_⟩
  · change F.sq (if x < 0 then F.nan else Arith.sqrtK x) = _
    rw [if_neg (not_lt.2 h0), ← ss, hr]
    exact y1
  · have := abs_sub_le Y (r * r) x
    linarith

set_option maxHeartbeats 1600000 in
/-- The arithmetic of the index once the concentrations are summed up. -/
theorem lacey_formula [RoundedArith K] [LawfulArith K] (N : ℕ) (hN : 2 ≤ N) (hN2 : N ≤ 2 ^ 50) (m mc v S Q : K)
    (hm0 : 0 ≤ m) (hm1 : m ≤ 1) (hmc0 : 0 ≤ mc) (hmc1 : mc ≤ 1) (hmm : |mc - m| ≤ 2 * roundoff K) (hv : v = m * (1 - m)) (hv0 : 1 / 2 ^ 41 ≤ v)
    (hQ : |Q - S| ≤ (N : K) * (2 * N + 12) / 2 ^ 52) (hS0 : 0 ≤ S) (hS : S ≤ N) :
    let I := (v - S / ((N : K) - 1)) / (v - v / N)
    ∃ J : K, (F.sq ((fin mc * (1 - fin mc) : F K).sqrt) - fin Q / (fin (N : K) - 1)) /
        (F.sq ((fin mc * (1 - fin mc) : F K).sqrt) - F.sq ((fin mc * (1 - fin mc) / fin (N : K) : F K).sqrt)) = fin J ∧
      |J - I| ≤ (N + 12 + 6 * |I|) / (2 ^ 48 * v) := by
  have hu := roundoff_pos (K := K)
  have hu1 := roundoff_le (K := K)
  have ht := tiny_pos (K := K)
  have htu := tiny_roundoff (K := K)
  have hNK : (2 : K) ≤ N := by exact_mod_cast hN
  have hN50 : (N : K) ≤ 2 ^ 50 := by exact_mod_cast hN2
  have hN0 : (0 : K) < N := by linarith
  have hN1 : (0 : K) < N - 1 := by linarith
  have hue : roundoff K = 1 / 2 ^ 53 := rfl
  intro I
  -- 1 - m
  obtain ⟨w, w1, w2, w3, w4⟩ := rnd_small (1 - mc) 1 (by rw [abs_le]; constructor <;> linarith) (one_le_pow₀ one_le_two)
  have w4 := w4 (by linarith)
  have w5 : w ≤ 1 := by
    have h := LawfulArith.rnd_mono (1 - mc) 1 (by linarith)
    have h1 : Arith.rnd (1 : K) = fin 1 := rnd_unit
    rw [w1, h1, F.le_fin] at h
    exact h
  have hp1 : mc * w ≤ 1 := by nlinarith
  have hp0 : 0 ≤ mc * w := mul_nonneg hmc0 w4
  obtain ⟨q, q1, q2, q3, q4⟩ := rnd_small (mc * w) 1 (by rw [abs_of_nonneg hp0]; exact hp1) (one_le_pow₀ one_le_two)
  have q4 := q4 hp0
  have q5 : q ≤ 1 := by
    have h := LawfulArith.rnd_mono (mc * w) 1 hp1
    have h1 : Arith.rnd (1 : K) = fin 1 := rnd_unit
    rw [q1, h1, F.le_fin] at h
    exact h
  have hqv : |q - v| ≤ 6 * roundoff K := by
    have h1 : |mc * w - mc * (1 - mc)| ≤ 2 * roundoff K := by
      rw [← mul_sub, abs_mul, abs_of_nonneg hmc0]
      have := mul_le_mul_of_nonneg_right hmc1 (abs_nonneg (w - (1 - mc)))
      linarith
    have h2 : |mc * (1 - mc) - v| ≤ 2 * roundoff K := by
      rw [hv, show mc * (1 - mc) - m * (1 - m) = (mc - m) * (1 - mc - m) by ring, abs_mul]
      have h3 : |1 - mc - m| ≤ 1 := by rw [abs_le]; constructor <;> linarith
      have := mul_le_mul hmm h3 (abs_nonneg _) (by linarith)
      linarith
    have h4 := abs_sub_le q (mc * w) (mc * (1 - mc))
    have h5 := abs_sub_le q (mc * (1 - mc)) v
    linarith
  have hv1 : v ≤ 1 := by nlinarith
  have hvp : 0 < v := lt_of_lt_of_le (by positivity) hv0
  -- the two variances
  obtain ⟨X, x1, x2, x3⟩ := root_back q q4 q5
  have hqN1 : q / N ≤ 1 := by rw [div_le_one hN0]; linarith
  have hqN0 : 0 ≤ q / N := div_nonneg q4 hN0.le
  obtain ⟨q', a1, a2, a3, a4⟩ := rnd_small (q / N) 1 (by rw [abs_of_nonneg hqN0]; exact hqN1) (one_le_pow₀ one_le_two)
  have a4 := a4 hqN0
  have a5 : q' ≤ 1 := by
    have h := LawfulArith.rnd_mono (q / N) 1 hqN1
    have h1 : Arith.rnd (1 : K) = fin 1 := rnd_unit
    rw [a1, h1, F.le_fin] at h
    exact h
  obtain ⟨Y, y1, y2, y3⟩ := root_back q' a4 a5
  have hXv : |X - v| ≤ 15 * roundoff K := by
    have := abs_sub_le X q v
    linarith
  have hqNv : |q / N - v / N| ≤ 6 * roundoff K := by
    rw [← sub_div, abs_div, abs_of_pos hN0, div_le_iff₀ hN0]
    nlinarith
  have hYv : |Y - v / N| ≤ 17 * roundoff K := by
    have := abs_sub_le Y q' (q / N)
    have := abs_sub_le Y (q / N) (v / N)
    linarith
  -- the observed variance
  have hSN : S / (N - 1) ≤ 2 := by rw [div_le_iff₀ hN1]; linarith
  have hSN0 : 0 ≤ S / (N - 1) := div_nonneg hS0 hN1.le
  have hn1 : Arith.rnd ((N : K) - 1) = fin ((N : K) - 1) := by
    have h := F.rnd_nat (K := K) (N - 1) (by omega)
    rw [Nat.cast_sub (by omega), Nat.cast_one] at h
    exact h
  have hQN : |Q / (N - 1) - S / (N - 1)| ≤ (N + 6) / 2 ^ 50 := by
    rw [← sub_div, abs_div, abs_of_pos hN1, div_le_iff₀ hN1]
    refine hQ.trans ?_
    rw [div_le_iff₀ (by positivity)]
    have : ((N : K) + 6) / 2 ^ 50 * (N - 1) * 2 ^ 52 = 4 * ((N + 6) * (N - 1)) := by
      rw [show (2 : K) ^ 52 = 4 * 2 ^ 50 by norm_num]; field_simp
    rw [this]
    exact cells_bound _ hNK
  have hc5 : ((N : K) + 6) / 2 ^ 50 ≤ 2 := by
    rw [div_le_iff₀ (by positivity)]
    have : (6 : K) ≤ 2 ^ 50 := by norm_num
    linarith
  have hQN4 : |Q / (N - 1)| ≤ 4 := by
    have := abs_le.1 hQN
    rw [abs_le]; constructor <;> linarith
  obtain ⟨Z, z1, z2, z3, _⟩ := rnd_small (Q / ((N : K) - 1)) 4 hQN4 (by norm_num)
  have hu50 : roundoff K = 1 / 8 * (1 / 2 ^ 50) := by rw [hue]; norm_num
  have hsplit : ∀ c : K, ((N : K) + c) / 2 ^ 50 = N / 2 ^ 50 + c * (1 / 2 ^ 50) := fun c => by ring
  have hu0 : (0 : K) < 1 / 2 ^ 50 := by positivity
  have hNp : (0 : K) ≤ N / 2 ^ 50 := by positivity
  have hZS : |Z - S / (N - 1)| ≤ (N + 7) / 2 ^ 50 := by
    have := abs_sub_le Z (Q / (N - 1)) (S / (N - 1))
    rw [hsplit] at hQN ⊢
    linarith
  have hZ5 : |Z| ≤ 6 := by
    have h6 : ((N : K) + 7) / 2 ^ 50 ≤ 2 := by
      rw [div_le_iff₀ (by positivity)]
      have : (7 : K) ≤ 2 ^ 50 := by norm_num
      linarith
    have := abs_le.1 hZS
    rw [abs_le]; constructor <;> linarith
  have hX2 : |X| ≤ 2 := by
    have := abs_le.1 hXv
    rw [abs_le]; constructor <;> linarith
  have hY2 : |Y| ≤ 3 := by
    have h1 : v / N ≤ 1 := by rw [div_le_one hN0]; linarith
    have h2 : 0 ≤ v / N := by positivity
    have := abs_le.1 hYv
    rw [abs_le]; constructor <;> linarith
  obtain ⟨A, b1, b2, b3, _⟩ := rnd_small (X - Z) 8 (by have := abs_sub X Z; linarith) (by norm_num)
  obtain ⟨D, d1, d2, d3, _⟩ := rnd_small (X - Y) 5 (by have := abs_sub X Y; linarith) (by norm_num)
  set num := v - S / ((N : K) - 1) with hnum
  set den := v - v / (N : K) with hden
  have hA : |A - num| ≤ (N + 11) / 2 ^ 50 := by
    have h1 : |X - Z - num| ≤ 15 * roundoff K + (N + 7) / 2 ^ 50 := by
      rw [show X - Z - num = (X - v) - (Z - S / (N - 1)) by rw [hnum]; ring]
      have := abs_sub (X - v) (Z - S / (N - 1))
      linarith
    have := abs_sub_le A (X - Z) num
    rw [hsplit] at h1 ⊢
    linarith
  have hD : |D - den| ≤ 5 / 2 ^ 50 := by
    have h1 : |X - Y - den| ≤ 32 * roundoff K := by
      rw [show X - Y - den = (X - v) - (Y - v / N) by rw [hden]; ring]
      have := abs_sub (X - v) (Y - v / N)
      linarith
    have := abs_sub_le D (X - Y) den
    rw [show (5 : K) / 2 ^ 50 = 5 * (1 / 2 ^ 50) by ring]
    linarith
  have hdv : v / 2 ≤ den := by
    have : v / N ≤ v / 2 := div_le_div_of_nonneg_left hvp.le (by norm_num) hNK
    rw [hden]; linarith
  have hsm : (5 : K) / 2 ^ 50 ≤ v / 4 := by
    have : (5 : K) / 2 ^ 50 ≤ 1 / 2 ^ 41 / 4 := by norm_num
    linarith
  have hDv : v / 4 ≤ D := by
    have := abs_le.1 hD
    linarith
  have hD0 : 0 < D := lt_of_lt_of_le (by positivity) hDv
  have hden0 : 0 < den := lt_of_lt_of_le (by positivity) hdv
  have hI : I = num / den := rfl
  have hdiff : |A / D - I| ≤ (N + 11 + 5 * |I|) / (2 ^ 48 * v) := by
    have e : A / D - I = (A - num + I * (den - D)) / D := by
      rw [hI]; field_simp; ring
    rw [e, abs_div, abs_of_pos hD0, div_le_div_iff₀ hD0 (by positivity)]
    have h1 : |A - num + I * (den - D)| ≤ (N + 11 + 5 * |I|) / 2 ^ 50 := by
      have h2 := abs_add_le (A - num) (I * (den - D))
      rw [abs_mul I, abs_sub_comm den D] at h2
      have h3 := mul_le_mul_of_nonneg_left hD (abs_nonneg I)
      rw [show ((N : K) + 11 + 5 * |I|) / 2 ^ 50 = (N + 11) / 2 ^ 50 + |I| * (5 / 2 ^ 50) by ring]
      linarith
    have h4 : (0 : K) ≤ N + 11 + 5 * |I| := by have := abs_nonneg I; linarith
    calc |A - num + I * (den - D)| * (2 ^ 48 * v) ≤ (N + 11 + 5 * |I|) / 2 ^ 50 * (2 ^ 48 * v) := mul_le_mul_of_nonneg_right h1 (by positivity)
      _ = (N + 11 + 5 * |I|) * (v / 4) := by rw [show (2 : K) ^ 50 = 4 * 2 ^ 48 by norm_num]; field_simp
      _ ≤ (N + 11 + 5 * |I|) * D := mul_le_mul_of_nonneg_left hDv h4
  have hAb : |A| ≤ 16 := by
    have := abs_sub_le A (X - Z) 0
    rw [sub_zero, sub_zero] at this
    have := abs_sub X Z
    linarith
  have hADb : |A / D| ≤ 2 ^ 100 := by
    rw [abs_div, abs_of_pos hD0, div_le_iff₀ hD0]
    have h1 : (16 : K) ≤ 2 ^ 100 * (1 / 2 ^ 41 / 4) := by norm_num
    have h2 : (2 : K) ^ 100 * (1 / 2 ^ 41 / 4) ≤ 2 ^ 100 * D := mul_le_mul_of_nonneg_left (by linarith) (by positivity)
    linarith
  obtain ⟨J, j1, _, j3, _⟩ := rnd_small (A / D) |A / D| le_rfl hADb
  refine ⟨J, ?_, ?_⟩
  · have o1 : (1 - fin mc : F K) = fin w := (F.sub_fin 1 mc).trans w1
    have o2 : (fin mc * fin w : F K) = fin q := q1
    have o3 : (fin q / fin (N : K) : F K) = fin q' := (F.div_fin_ne q hN0.ne').trans a1
    have o4 : (fin (N : K) - 1 : F K) = fin ((N : K) - 1) := (F.sub_fin (N : K) 1).trans hn1
    have o5 : (fin Q / fin ((N : K) - 1) : F K) = fin Z := (F.div_fin_ne Q hN1.ne').trans z1
    rw [o1, o2, o3, x1, y1, o4, o5, F.sub_fin, F.sub_fin, b1, d1, F.div_fin_ne A hD0.ne', j1]
  · have h1 := abs_sub_le J (A / D) I
    have h2 : |A / D| ≤ |I| + |A / D - I| := by
      have := abs_add_le I (A / D - I)
      rwa [show I + (A / D - I) = A / D by ring] at this
    have hR : (1 : K) / 2 ^ 48 ≤ 1 / (2 ^ 48 * v) := by
      refine one_div_le_one_div_of_le (by positivity) ?_
      exact mul_le_of_le_one_right (by positivity) hv1
    have h3 := last_rounding (roundoff K) (tiny K) N |I| (1 / (2 ^ 48 * v)) |A / D| hu hue htu hN50 (abs_nonneg I) hR (by
      rw [← mul_div_assoc, mul_one]; linarith)
    rw [show ((N : K) + 12 + 6 * |I|) / (2 ^ 48 * v) = (N + 11 + 5 * |I|) / (2 ^ 48 * v) + (1 + |I|) * (1 / (2 ^ 48 * v)) by ring]
    linarith

/-- A ratio of two counts. -/
theorem count_ratio_near [RoundedArith K] [LawfulArith K] (a n : ℕ) (h : a ≤ n) (hn : 0 < n) :
    ∃ y, Arith.rnd ((a : K) / (n : K)) = fin y ∧ IsDouble y ∧ 0 ≤ y ∧ y ≤ 1 ∧ |y - (a : K) / (n : K)| ≤ 2 * roundoff K := by
  have htu := tiny_roundoff (K := K)
  have hn0 : (0 : K) < n := by exact_mod_cast hn
  have h0 : 0 ≤ (a : K) / (n : K) := by positivity
  have h1 : (a : K) / (n : K) ≤ 1 := by rw [div_le_one hn0]; exact_mod_cast h
  obtain ⟨y, y1, y2, y3, y4⟩ := rnd_small ((a : K) / (n : K)) 1 (by rw [abs_of_nonneg h0]; exact h1) (one_le_pow₀ one_le_two)
  have y5 := LawfulArith.rnd_mono _ _ h1
  rw [y1, rnd_unit, F.le_fin] at y5
  exact ⟨y, y1, y2, y4 h0, y5, by linarith⟩

/-- One squared deviation. -/
theorem deviation_near (u c m cc mc e : K) (hu : 0 < u) (hu1 : u ≤ 1 / 16) (hc0 : 0 ≤ c) (hc1 : c ≤ 1) (hm0 : 0 ≤ m) (hm1 : m ≤ 1)
    (hcc0 : 0 ≤ cc) (hcc1 : cc ≤ 1) (hmc0 : 0 ≤ mc) (hmc1 : mc ≤ 1) (h1 : |cc - c| ≤ 2 * u) (h2 : |mc - m| ≤ 2 * u)
    (h3 : |e - (cc - mc)| ≤ u * |cc - mc|) : |e * e - (c - m) ^ 2| ≤ 15 * u ∧ e * e ≤ 2 := by
  have d1 : |cc - mc| ≤ 1 := by rw [abs_le]; constructor <;> linarith
  have d2 : |e - (cc - mc)| ≤ u := h3.trans (by nlinarith)
  have d3 := abs_le.1 d2
  have d4 := abs_le.1 d1
  have d5 := abs_le.1 h1
  have d6 := abs_le.1 h2
  have d7 : |e| ≤ 1 + u := by rw [abs_le]; constructor <;> linarith
  have d8 : |e - (c - m)| ≤ 5 * u := by rw [abs_le]; constructor <;> linarith
  have d9 : |e + (c - m)| ≤ 3 := by
    have := abs_le.1 d7
    rw [abs_le]; constructor <;> linarith
  constructor
  · rw [show e * e - (c - m) ^ 2 = (e - (c - m)) * (e + (c - m)) by ring, abs_mul]
    have := mul_le_mul d8 d9 (abs_nonneg _) (by linarith)
    linarith
  · rw [← abs_mul_abs_self e]
    have := mul_le_mul d7 d7 (abs_nonneg e) (by linarith)
    nlinarith

theorem variance_low (A B n : ℕ) (hA : 0 < A) (hB : 0 < B) (hn : n = A + B) (h40 : n ≤ 2 ^ 40) :
    1 / 2 ^ 41 ≤ (A : K) / (n : K) * (1 - (A : K) / (n : K)) := by
  have hn0 : (0 : K) < n := by exact_mod_cast (by omega : 0 < n)
  have hA1 : (1 : K) ≤ A := by exact_mod_cast hA
  have hB1 : (1 : K) ≤ B := by exact_mod_cast hB
  have e : (n : K) = A + B := by rw [hn]; push_cast; rfl
  have hn40 : (n : K) ≤ 2 ^ 40 := by exact_mod_cast h40
  have e1 : (A : K) / (n : K) * (1 - (A : K) / (n : K)) = A * B / (n * n) := by
    have : (1 : K) - A / n = B / n := by rw [eq_div_iff hn0.ne', sub_mul, div_mul_cancel₀ _ hn0.ne', e]; ring
    rw [this, div_mul_div_comm]
  rw [e1, div_le_div_iff₀ (by positivity) (by positivity), one_mul]
  have h1 : (n : K) ≤ 2 * (A * B) := by rw [e]; nlinarith
  have h2 : (n : K) * n ≤ 2 ^ 40 * (2 * (A * B)) := mul_le_mul hn40 h1 hn0.le (by positivity)
  rw [show (41 : ℕ) = 40 + 1 from rfl, pow_succ]
  linarith

/-- The sum of the squared deviations of the concentrations. -/
theorem spread_near [RoundedArith K] [LawfulArith K] {α : Type} (R : List α) (N : ℕ) (hk : R.length ≤ N) (hN : N ≤ 2 ^ 50)
    (cc c : α → K) (m mc : K) (hmc : IsDouble mc) (hm0 : 0 ≤ m) (hm1 : m ≤ 1) (hmc0 : 0 ≤ mc) (hmc1 : mc ≤ 1) (hmm : |mc - m| ≤ 2 * roundoff K)
    (hc : ∀ x ∈ R, 0 ≤ c x ∧ c x ≤ 1 ∧ IsDouble (cc x) ∧ 0 ≤ cc x ∧ cc x ≤ 1 ∧ |cc x - c x| ≤ 2 * roundoff K) :
    ∃ Q, F.sum (R.map fun x => F.sq (fin (cc x) - fin mc)) = fin Q ∧
      |Q - (R.map fun x => (c x - m) ^ 2).sum| ≤ (N : K) * (2 * N + 12) / 2 ^ 52 := by
  have hu := roundoff_pos (K := K)
  have hu1 := roundoff_le (K := K)
  have ht := tiny_pos (K := K)
  have htu := tiny_roundoff (K := K)
  have hue : roundoff K = 1 / 2 ^ 53 := rfl
  obtain ⟨e, Q, q1, q2, q3, q4, _⟩ := squares_near (R.map cc) (by rw [List.length_map]; omega)
    (fun v hv => by obtain ⟨x, hx, rfl⟩ := List.mem_map.1 hv; exact (hc x hx).2.2.1) mc hmc 1 (one_le_pow₀ one_le_two)
    (fun v hv => by
      obtain ⟨x, hx, rfl⟩ := List.mem_map.1 hv
      have := hc x hx
      rw [abs_le]; constructor <;> linarith [this.2.2.2.1, this.2.2.2.2.1])
  rw [List.map_map] at q1
  rw [List.map_map, List.length_map] at q4
  refine ⟨Q, q1, ?_⟩
  have hd : ∀ x ∈ R, |e (cc x) * e (cc x) - (c x - m) ^ 2| ≤ 15 * roundoff K ∧ e (cc x) * e (cc x) ≤ 2 := fun x hx => by
    obtain ⟨h1, h2, _, h4, h5, h6⟩ := hc x hx
    exact deviation_near (roundoff K) (c x) m (cc x) mc (e (cc x)) hu hu1 h1 h2 hm0 hm1 h4 h5 hmc0 hmc1 h6 hmm
      (q3 (cc x) (List.mem_map.2 ⟨x, hx, rfl⟩))
  have hA : (R.map fun x => e (cc x) * e (cc x)).sum ≤ R.length * 2 := by
    refine le_trans (le_abs_self _) ?_
    refine le_trans (abs_sum_le _) ?_
    rw [List.map_map]
    exact sum_le_const R (fun x => e (cc x) * e (cc x)) 2 fun x hx => by rw [abs_of_nonneg (mul_self_nonneg _)]; exact (hd x hx).2
  have hdiff : |(R.map fun x => e (cc x) * e (cc x)).sum - (R.map fun x => (c x - m) ^ 2).sum| ≤ R.length * (15 * roundoff K) := by
    have := sum_diff R (fun x => e (cc x) * e (cc x)) (fun x => (c x - m) ^ 2) 0 (15 * roundoff K) (fun x hx => by rw [zero_mul, zero_add]; exact (hd x hx).1)
    rwa [zero_mul, zero_add] at this
  have hkN : (R.length : K) ≤ N := by exact_mod_cast hk
  have hk0 : (0 : K) ≤ R.length := Nat.cast_nonneg _
  generalize (R.length : K) = k at *
  change |Q - (R.map fun x => e (cc x) * e (cc x)).sum| ≤ (k + 2) / 2 ^ 52 * (R.map fun x => e (cc x) * e (cc x)).sum + 2 * (k * tiny K) at q4
  generalize (R.map fun x => e (cc x) * e (cc x)).sum = E at *
  generalize (R.map fun x => (c x - m) ^ 2).sum = S at *
  have h1 := abs_sub_le Q E S
  have h2 : (k + 2) / 2 ^ 52 * E ≤ (k + 2) / 2 ^ 52 * (k * 2) := mul_le_mul_of_nonneg_left hA (by positivity)
  have h3 : tiny K ≤ 1 / 4 / 2 ^ 52 := by
    unfold tiny
    rw [div_div]
    refine one_div_le_one_div_of_le (by positivity) ?_
    rw [show (4 : K) * 2 ^ 52 = 2 ^ 54 by norm_num]
    exact pow_le_pow_right₀ one_le_two (by norm_num)
  have h4 : k * tiny K ≤ k * (1 / 4 / 2 ^ 52) := mul_le_mul_of_nonneg_left h3 hk0
  have h5 : k * (15 * roundoff K) = k * (15 / 2 / 2 ^ 52) := by rw [hue]; congr 1; norm_num
  have h6 : (k + 2) / 2 ^ 52 * (k * 2) + 2 * (k * (1 / 4 / 2 ^ 52)) + k * (15 / 2 / 2 ^ 52) = k * (2 * k + 12) / 2 ^ 52 := by ring
  have h7 : k * (2 * k + 12) / 2 ^ 52 ≤ (N : K) * (2 * N + 12) / 2 ^ 52 := by
    refine div_le_div_of_nonneg_right ?_ (by positivity)
    exact mul_le_mul hkN (by linarith) (by linarith) (by linarith)
  linarith

/-- `laceyValue` on two count grids, in rounded arithmetic. -/
theorem laceyValue_near [LawfulArith K] [RoundedArith K] (ga gb : Grid K) (cells : CellId)
    (sa : ga.st.data.shape = cells) (sb : gb.st.data.shape = cells) (wa : ga.st.weight.shape = cells) (wb : gb.st.weight.shape = cells)
    (nA nB : CellId → ℕ) (hda : ∀ c, ga.st.data.get c = fin (nA c : K)) (hdb : ∀ c, gb.st.data.get c = fin (nB c : K))
    (hwa : ∀ c, ga.st.weight.get c = fin (nA c : K)) (hwb : ∀ c, gb.st.weight.get c = fin (nB c : K)) (hcnt : ∀ c, nA c + nB c ≤ 2 ^ 53)
    (cnt : List ℕ) (a b threshold A B : ℕ) (hth : threshold ≤ 2 ^ 53) (hA : at' cnt a = .ok A) (hB : at' cnt b = .ok B) (hA0 : 0 < A) (hB0 : 0 < B)
    (hAB : A + B ≤ 2 ^ 40) (hN : 2 ≤ ∏ i, cells i) (hN2 : ∏ i, cells i ≤ 2 ^ 50) :
    let m : K := (A : K) / ((A + B : ℕ) : K)
    let N : K := ((∏ i, cells i : ℕ) : K)
    let I := (m * (1 - m) - (∑ c ∈ (cellsOf cells).filter (fun c => 0 < nA c + nB c ∧ threshold ≤ nA c + nB c),
          ((nA c : K) / ((nA c + nB c : ℕ) : K) - m) ^ 2) / (N - 1)) / (m * (1 - m) - m * (1 - m) / N)
    ∃ J, laceyValue ga gb cnt a b threshold = .ok (fin J) ∧ |J - I| ≤ (N + 12 + 6 * |I|) / (2 ^ 48 * (m * (1 - m))) := by
  intro m N I
  have hABp : 0 < A + B := by omega
  obtain ⟨mc, k1, k2, k3, k4, k5⟩ := count_ratio_near (K := K) A (A + B) (by omega) hABp
  have hABK : (0 : K) < ((A + B : ℕ) : K) := by exact_mod_cast hABp
  have hm0 : 0 ≤ m := by positivity
  have hm1 : m ≤ 1 := by
    change (A : K) / ((A + B : ℕ) : K) ≤ 1
    rw [div_le_one hABK]; exact_mod_cast (by omega : A ≤ A + B)
  have hcc : ∀ c, ∃ y : K, 0 < nA c + nB c → Arith.rnd ((nA c : K) / ((nA c + nB c : ℕ) : K)) = fin y ∧ IsDouble y ∧ 0 ≤ y ∧ y ≤ 1 ∧
      |y - (nA c : K) / ((nA c + nB c : ℕ) : K)| ≤ 2 * roundoff K := by
    intro c
    by_cases h : 0 < nA c + nB c
    · obtain ⟨y, hy⟩ := count_ratio_near (K := K) (nA c) (nA c + nB c) (by omega) h
      exact ⟨y, fun _ => hy⟩
    · exact ⟨0, fun h' => absurd h' h⟩
  choose cc hcc using hcc
  obtain ⟨s, s1, s2, s3⟩ := Arr.zipWith_same (· + ·) gb.st.data ga.st.data (sb.trans sa.symm)
  obtain ⟨q, q1, q2, q3⟩ := Arr.zipWith_same (· / ·) ga.st.data s (sa.trans (s2.trans sb).symm)
  obtain ⟨w, w1, w2, w3⟩ := Arr.zipWith_same (· + ·) ga.st.weight gb.st.weight (wa.trans wb.symm)
  have hqs : q.shape = cells := q2.trans sa
  have hws : w.shape = cells := w2.trans wa
  have hadd : ∀ c, (fin (nA c : K) + fin (nB c : K) : F K) = fin ((nA c + nB c : ℕ) : K) := by
    intro c
    have := F.rnd_nat (K := K) (nA c + nB c) (hcnt c)
    rw [Nat.cast_add] at this
    rw [Nat.cast_add]
    exact this
  have hs : ∀ c, InB cells c → s.get c = fin ((nA c + nB c : ℕ) : K) := by
    intro c hc
    rw [s3 c (by rw [sb]; exact hc), hda, hdb, ← hadd]
    change Arith.rnd _ = Arith.rnd _
    rw [add_comm]
  have hqc : ∀ c, InB cells c → q.get c = if 0 < nA c + nB c then fin (cc c) else F.nan := by
    intro c hc
    rw [q3 c (by rw [sa]; exact hc), hs c hc, hda]
    split_ifs with h
    · rw [F.div_fin_ne _ (by exact_mod_cast (by omega : nA c + nB c ≠ 0)), (hcc c h).1]
    · have h1 : nA c = 0 := by omega
      have h2 : nB c = 0 := by omega
      rw [h1, h2]; simp [F.div_fin, F.infTimes]
  have hwc : ∀ c, InB cells c → w.get c = fin ((nA c + nB c : ℕ) : K) := by
    intro c hc
    rw [w3 c (by rw [wa]; exact hc), hwa, hwb, hadd]
  have hlen : q.toList.length = ∏ i, cells i := by unfold Arr.toList; rw [List.length_map, length_indices, hqs]
  let R := (indices 3 cells).filter fun c => decide (0 < nA c + nB c ∧ threshold ≤ nA c + nB c)
  have hR : ∀ c ∈ R, InB cells c ∧ 0 < nA c + nB c := fun c hc => by
    obtain ⟨h1, h2⟩ := List.mem_filter.1 hc
    exact ⟨(mem_indices _ _).1 h1, (of_decide_eq_true h2).1⟩
  have hRlen : R.length ≤ ∏ i, cells i := by
    rw [← length_indices]; exact List.length_filter_le _ _
  have hconc : ∀ c ∈ R, 0 ≤ (nA c : K) / ((nA c + nB c : ℕ) : K) ∧ (nA c : K) / ((nA c + nB c : ℕ) : K) ≤ 1 := fun c hc => by
    have h : (0 : K) < ((nA c + nB c : ℕ) : K) := by exact_mod_cast (hR c hc).2
    refine ⟨by positivity, ?_⟩
    rw [div_le_one h]; exact_mod_cast (by omega : nA c ≤ nA c + nB c)
  obtain ⟨Q, o1, o2⟩ := spread_near R (∏ i, cells i) hRlen hN2 cc (fun c => (nA c : K) / ((nA c + nB c : ℕ) : K)) m mc k2 hm0 hm1 k3 k4 k5
    (fun c hc => by
      obtain ⟨_, h2, h3, h4, h5⟩ := hcc c (hR c hc).2
      exact ⟨(hconc c hc).1, (hconc c hc).2, h2, h3, h4, h5⟩)
  have hfold : (q.toList.zip w.toList).foldl (fun s (x : F K × F K) =>
      if x.2 < F.ofNat threshold then s else if x.1.isNaN then s else s + F.sq (x.1 - fin mc)) (0 : F K) = fin Q := by
    have hz : q.toList.zip w.toList = (indices 3 cells).map fun c => (q.get c, w.get c) := by
      unfold Arr.toList
      rw [hqs, hws, List.zip_map']
    rw [hz, List.foldl_map, ← o1]
    unfold F.sum
    rw [List.foldl_map, List.foldl_filter]
    have hcongr : ∀ (l : List CellId) (z : F K), (∀ c ∈ l, InB cells c) → l.foldl (fun s c =>
        if w.get c < F.ofNat threshold then s else if (q.get c).isNaN then s else s + F.sq (q.get c - fin mc)) z =
        l.foldl (fun s c => if decide (0 < nA c + nB c ∧ threshold ≤ nA c + nB c) = true then s + F.sq (fin (cc c) - fin mc) else s) z := by
      intro l
      induction l with
      | nil => intro z _; rfl
      | cons c l ih =>
        intro z hl
        rw [List.foldl_cons, List.foldl_cons, ih _ (fun c hc => hl c (by simp [hc]))]
        congr 1
        have hc := hl c (by simp)
        rw [hwc c hc, show (F.ofNat threshold : F K) = fin (threshold : K) from F.rnd_nat _ hth]
        simp only [decide_eq_true_eq]
        by_cases h1 : threshold ≤ nA c + nB c
        · rw [if_neg (by rw [F.lt_fin, not_lt]; exact_mod_cast h1)]
          by_cases h2 : 0 < nA c + nB c
          · rw [hqc c hc, if_pos h2, if_neg (show ¬ (fin (cc c)).isNaN = true by simp [F.isNaN]),
              if_pos (show 0 < nA c + nB c ∧ threshold ≤ nA c + nB c from ⟨h2, h1⟩)]
          · rw [hqc c hc, if_neg h2, if_pos (show (F.nan : F K).isNaN = true from rfl),
              if_neg (show ¬ (0 < nA c + nB c ∧ threshold ≤ nA c + nB c) from fun h => h2 h.1)]
        · rw [if_pos (by rw [F.lt_fin]; exact_mod_cast not_le.1 h1), if_neg (fun h => h1 h.2)]
    exact hcongr _ _ (fun c hc => (mem_indices _ _).1 hc)
  have hsum : (R.map fun c => ((nA c : K) / ((nA c + nB c : ℕ) : K) - m) ^ 2).sum =
      ∑ c ∈ (cellsOf cells).filter (fun c => 0 < nA c + nB c ∧ threshold ≤ nA c + nB c), ((nA c : K) / ((nA c + nB c : ℕ) : K) - m) ^ 2 := by
    rw [← List.sum_toFinset _ ((nodup_indices cells).filter _), List.toFinset_filter, toFinset_indices]
    simp only [decide_eq_true_eq]
  rw [hsum] at o2
  have hS0 : (0 : K) ≤ ∑ c ∈ (cellsOf cells).filter (fun c => 0 < nA c + nB c ∧ threshold ≤ nA c + nB c),
      ((nA c : K) / ((nA c + nB c : ℕ) : K) - m) ^ 2 := Finset.sum_nonneg fun _ _ => sq_nonneg _
  have hSN : (∑ c ∈ (cellsOf cells).filter (fun c => 0 < nA c + nB c ∧ threshold ≤ nA c + nB c),
      ((nA c : K) / ((nA c + nB c : ℕ) : K) - m) ^ 2) ≤ ((∏ i, cells i : ℕ) : K) := by
    rw [← hsum]
    have h1 := sum_le_const R (fun c => ((nA c : K) / ((nA c + nB c : ℕ) : K) - m) ^ 2) 1 (fun c hc => by
      obtain ⟨h1, h2⟩ := hconc c hc
      rw [abs_of_nonneg (sq_nonneg _), sq_le_one_iff_abs_le_one, abs_le]
      constructor <;> linarith)
    have h2 : ((R.length : ℕ) : K) ≤ ((∏ i, cells i : ℕ) : K) := by exact_mod_cast hRlen
    have h3 : R.map (fun x => |((nA x : K) / ((nA x + nB x : ℕ) : K) - m) ^ 2|) = R.map fun c => ((nA c : K) / ((nA c + nB c : ℕ) : K) - m) ^ 2 :=
      List.map_congr_left fun c _ => abs_of_nonneg (sq_nonneg _)
    rw [h3] at h1
    linarith
  obtain ⟨J, j1, j2⟩ := lacey_formula (∏ i, cells i) hN hN2 m mc (m * (1 - m)) _ Q hm0 hm1 k3 k4 k5 rfl
    (variance_low A B (A + B) hA0 hB0 rfl hAB) o2 hS0 hSN
  refine ⟨J, ?_, j2⟩
  unfold laceyValue
  rw [s1, run_bind_ok]
  unfold Grid.divideByArray Store.divideByArray
  rw [q1, run_bind_ok, run_pure, run_bind_ok, run_pure, run_bind_ok, hA, run_bind_ok, hB, run_bind_ok]
  rw [w1, run_bind_ok, run_pure]
  dsimp only
  have e1 : (F.ofNat A / F.ofNat (A + B) : F K) = fin mc := by
    rw [show (F.ofNat A : F K) = fin (A : K) from F.rnd_nat _ (by omega),
      show (F.ofNat (A + B) : F K) = fin ((A + B : ℕ) : K) from F.rnd_nat _ (by omega), F.div_fin_ne _ hABK.ne', k1]
  rw [e1, hfold, hlen, show (F.ofNat (∏ i, cells i) : F K) = fin ((∏ i, cells i : ℕ) : K) from F.rnd_nat _ (by omega), j1]

/-- One timestep of `lacey_mixing`, in rounded arithmetic. -/
theorem lacey_step_near [LawfulArith K] [RoundedArith K] (p : Profile) (grid : Grid K) (hg : grid.Fillable p) (hfresh : ∀ c, grid.st.weight.get c = 0)
    (sel : Selector K) (hs : sel.Usable) (ts : Timestep K) (hw : ts.Wf) (hv : sel.timestepValid ts.time = true) (hlen : ts.position.length ≤ 2 ^ 39)
    (a b threshold : ℕ) (hth : threshold ≤ 2 ^ 53) (hab : a ≠ b) (hA : 0 < typeCount sel ts a) (hB : 0 < typeCount sel ts b)
    (hN : 2 ≤ ∏ i, grid.geom.cells i) (hN2 : ∏ i, grid.geom.cells i ≤ 2 ^ 50) :
    ∃ s J, forParticles sel ts (fun s i => laceyBody p grid a b s ts i) (grid.newZeros, grid.newZeros, []) = .ok s ∧
      laceyValue s.1 s.2.1 s.2.2 a b threshold = .ok (fin J) ∧
      let I : K := laceyIndex p grid.geom sel ts a b threshold
      let m : K := meanConc sel ts a b
      |J - I| ≤ (((∏ i, grid.geom.cells i : ℕ) : K) + 12 + 6 * |I|) / (2 ^ 48 * (m * (1 - m))) := by
  obtain ⟨ga, gb, f1, f2, f3, f4, f5, f6⟩ := concentration_fill p grid hg a b hab (fun _ => ts) ((ts.picks sel).map fun i => (0, i)) (by
    intro x hx
    obtain ⟨i, hi, rfl⟩ := List.mem_map.1 hx
    exact ⟨picks_lt sel ts i hi, hw⟩)
  rw [foldlM_map_run] at f1
  have hfold := lacey_fold p grid a b ts hw (ts.picks sel) (picks_lt sel ts) (grid.newZeros, grid.newZeros) (ga, gb) [] f1
  have hpk : (ts.picks sel).length ≤ 2 ^ 39 := by
    unfold Timestep.picks
    split_ifs
    · exact (List.length_filter_le _ _).trans (by rw [List.length_range]; exact hlen)
  have hmem : ∀ x, 0 < typeCount sel ts x → x ∈ (ts.picks sel).map ts.typ := by
    intro x hx
    obtain ⟨i, hi, h⟩ := List.countP_pos_iff.1 hx
    exact List.mem_map.2 ⟨i, hi, of_decide_eq_true h⟩
  have hcnt : ∀ x, 0 < typeCount sel ts x → at' (((ts.picks sel).map ts.typ).foldl countType []) x = .ok (typeCount sel ts x) := by
    intro x hx
    rw [counter_read _ _ (hmem x hx), List.countP_map]
    rfl
  have hcell : ∀ x c, ((((ts.picks sel).map fun i => ((0 : ℕ), i)).filter fun y => inCell p grid.geom (posOf (fun _ => ts) y) c &&
      decide (typOf (fun _ => ts) y = x)).length) = cellCount p grid.geom sel ts x c := by
    intro x c
    rw [← List.countP_eq_length_filter, List.countP_map]
    rfl
  have hcb : ∀ x c, cellCount p grid.geom sel ts x c ≤ 2 ^ 39 := fun x c => List.countP_le_length.trans hpk
  have htb : ∀ x, typeCount sel ts x ≤ 2 ^ 39 := fun x => List.countP_le_length.trans hpk
  have hz : ∀ n : ℕ, n ≤ 2 ^ 39 → (List.replicate n (1 : F K)).foldl (· + ·) (0 : F K) = fin (n : K) := by
    intro n hn
    have := foldl_ones (K := K) 0 n (by omega)
    rw [Nat.cast_zero, Nat.zero_add] at this
    exact this
  have h1 := htb a
  have h2 := htb b
  obtain ⟨J, j1, j2⟩ := laceyValue_near ga gb grid.geom.cells (f2.1.trans (by rw [f4])) (f3.1.trans (by rw [f5])) (f2.2.trans (by rw [f4]))
    (f3.2.trans (by rw [f5])) (cellCount p grid.geom sel ts a) (cellCount p grid.geom sel ts b)
    (fun c => by rw [(f6 c).1, hcell, hz _ (hcb _ _)]) (fun c => by rw [(f6 c).2.1, hcell, hz _ (hcb _ _)])
    (fun c => by rw [(f6 c).2.2.1, hcell, hfresh, hz _ (hcb _ _)]) (fun c => by rw [(f6 c).2.2.2, hcell, hfresh, hz _ (hcb _ _)])
    (fun c => by have := hcb a c; have := hcb b c; omega)
    _ a b threshold _ _ hth (hcnt a hA) (hcnt b hB) hA hB (by omega) hN hN2
  refine ⟨(ga, gb, ((ts.picks sel).map ts.typ).foldl countType []), J, ?_, j1, j2⟩
  rw [forParticles_eq sel hs ts hw]
  have : (List.range ts.position.length).filter (ts.chosen sel) = ts.picks sel := by unfold Timestep.picks; rw [if_pos hv]
  rw [this]
  exact hfold

/-- **C156.** `lacey_mixing` in rounded arithmetic, on a grid of at least two and at most `2^50` cells without previous weights, for two types both
seen among the selected particles of every timestep of the window, at most `2^39` particles a timestep: it returns one entry for every timestep but
the last: for a timestep of the window its time and a number that differs from the index `I` of exact arithmetic (`C42_value`) by at most
`(N + 12 + 6 |I|) / (2^48 m (1 - m))`, `N` the number of cells and `m` the overall fraction of the first type; zeros for the others. -/
theorem C156_lacey [LawfulArith K] [RoundedArith K] (p : Profile) (d : Dm (Timestep K)) (hd : d.Inv) (grid : Grid K)
    (hg : grid.Fillable p) (hfresh : ∀ c, grid.st.weight.get c = 0) (hN : 2 ≤ ∏ i, grid.geom.cells i) (hN2 : ∏ i, grid.geom.cells i ≤ 2 ^ 50)
    (sel : Selector K) (hs : sel.Usable) (hw : ∀ t, t < d.n → (d.file t).Wf ∧ (d.file t).position.length ≤ 2 ^ 39)
    (a b threshold : ℕ) (hth : threshold ≤ 2 ^ 53) (hab : a ≠ b)
    (hseen : ∀ t, t < d.n - 1 → sel.timestepValid (d.file t).time = true →
      0 < typeCount sel (d.file t) a ∧ 0 < typeCount sel (d.file t) b) :
    ∃ d' out, laceyMixing p d grid sel a b threshold = .ok (d', out) ∧ d'.Inv ∧ d'.file = d.file ∧ d'.n = d.n ∧ out.length = d.n - 1 ∧
      ∀ t, t < d.n - 1 → (sel.timestepValid (d.file t).time = false → out[t]? = some (0, 0)) ∧
        (sel.timestepValid (d.file t).time = true → ∃ J, out[t]? = some ((d.file t).time, fin J) ∧
          let I : K := laceyIndex p grid.geom sel (d.file t) a b threshold
          let m : K := meanConc sel (d.file t) a b
          |J - I| ≤ (((∏ i, grid.geom.cells i : ℕ) : K) + 12 + 6 * |I|) / (2 ^ 48 * (m * (1 - m)))) := by
  have hn : 1 ≤ d.n := by have := hd.1.1; have := hd.1.2.1; omega
  have hstep : ∀ t, ∃ J : K, t < d.n - 1 → sel.timestepValid (d.file t).time = true → ∃ s,
      forParticles sel (d.file t) (fun s i => laceyBody p grid a b s (d.file t) i) (grid.newZeros, grid.newZeros, []) = .ok s ∧
      laceyValue s.1 s.2.1 s.2.2 a b threshold = .ok (fin J) ∧
      let I : K := laceyIndex p grid.geom sel (d.file t) a b threshold
      let m : K := meanConc sel (d.file t) a b
      |J - I| ≤ (((∏ i, grid.geom.cells i : ℕ) : K) + 12 + 6 * |I|) / (2 ^ 48 * (m * (1 - m))) := by
    intro t
    by_cases h : t < d.n - 1 ∧ sel.timestepValid (d.file t).time = true
    · obtain ⟨hA, hB⟩ := hseen t h.1 h.2
      obtain ⟨s, J, h1, h2, h3⟩ := lacey_step_near p grid hg hfresh sel hs (d.file t) (hw t (by omega)).1 h.2 (hw t (by omega)).2 a b threshold hth hab
        hA hB hN hN2
      exact ⟨J, fun _ _ => ⟨s, h1, h2, h3⟩⟩
    · exact ⟨0, fun h1 h2 => absurd ⟨h1, h2⟩ h⟩
  choose J hJ using hstep
  obtain ⟨m, hm, _, e⟩ := forSteps_eq (K := K) p (List.range (d.n - 1)) (fun (acc : List (F K × F K)) _ ts =>
    if sel.timestepValid ts.time then do
      let s ← forParticles sel ts (fun s i => laceyBody p grid a b s ts i) (grid.newZeros, grid.newZeros, [])
      let v ← laceyValue s.1 s.2.1 s.2.2 a b threshold
      pure (acc ++ [(ts.time, v)])
    else pure (acc ++ [(0, 0)])) d hd (fun t ht => by have := List.mem_range.1 ht; omega) []
  have hemit := foldlM_emit (List.range (d.n - 1)) (fun (acc : List (F K × F K)) t =>
    if sel.timestepValid (d.file t).time then do
      let s ← forParticles sel (d.file t) (fun s i => laceyBody p grid a b s (d.file t) i) (grid.newZeros, grid.newZeros, [])
      let v ← laceyValue s.1 s.2.1 s.2.2 a b threshold
      pure (acc ++ [((d.file t).time, v)])
    else pure (acc ++ [(0, 0)])) (fun t => if sel.timestepValid (d.file t).time = true
        then ((d.file t).time, fin (J t)) else (0, 0)) (by
      intro acc t ht
      have ht' := List.mem_range.1 ht
      by_cases hv : sel.timestepValid (d.file t).time = true
      · rw [if_pos hv, if_pos hv]
        obtain ⟨s, h1, h2, _⟩ := hJ t ht' hv
        rw [h1, run_bind_ok, h2, run_bind_ok]
        rfl
      · rw [if_neg hv, if_neg hv]; rfl) []
  refine ⟨{ d with main := m }, (List.range (d.n - 1)).map fun t => if sel.timestepValid (d.file t).time = true
        then ((d.file t).time, fin (J t)) else (0, 0), ?_, ⟨hm, hd.2⟩, rfl, rfl, by rw [List.length_map, List.length_range], ?_⟩
  · unfold laceyMixing
    rw [stepsBut_eq p d hd hn, run_bind_ok, e, hemit, run_bind_ok, List.nil_append]
  · intro t ht
    have hget : ((List.range (d.n - 1)).map fun t => if sel.timestepValid (d.file t).time = true
        then ((d.file t).time, fin (J t)) else ((0 : F K), (0 : F K)))[t]? = some (if sel.timestepValid (d.file t).time = true
        then ((d.file t).time, fin (J t)) else (0, 0)) := by
      rw [List.getElem?_map, List.getElem?_range ht]
      rfl
    refine ⟨fun hv => ?_, fun hv => ?_⟩
    · rw [hget, if_neg (by rw [hv]; exact Bool.false_ne_true)]
    · obtain ⟨_, _, _, h3⟩ := hJ t ht hv
      exact ⟨J t, by rw [hget, if_pos hv], h3⟩

/-- Case for `C156_lacey`: one particle of each type in the same one of two cells. -/
example (p : Profile) (kind : Kind) : ∃ d d' out, Dm.new p kind (fun _ => (mixStep : Timestep ℝ)) 2 Timestep.default = .ok d ∧
    laceyMixing p d twoCells Selector.default 0 1 1 = .ok (d', out) ∧ ∃ J, out[0]? = some (fin 0, fin J) ∧
      let I : ℝ := laceyIndex p twoCells.geom Selector.default mixStep 0 1 1
      |J - I| ≤ (2 + 12 + 6 * |I|) / (2 ^ 48 * (1 / 4)) := by
  have hN : ∏ i, twoCells.geom.cells i = 2 := by
    change ∏ i, (![1, 1, 2] : Fin 3 → ℕ) i = 2
    rw [Fin.prod_univ_three]; rfl
  obtain ⟨d, e, hinv, hf, hn, _⟩ := Dm.new_ok p kind (fun _ => (mixStep : Timestep ℝ)) 2 Timestep.default (by norm_num) (by norm_num)
  have hw : (mixStep : Timestep ℝ).Wf := by
    refine ⟨?_, ?_, ?_, ?_, ?_, ?_⟩ <;> rfl
  have hv : (Selector.default : Selector ℝ).timestepValid (mixStep : Timestep ℝ).time = true := one_time
  have e0 : (mixStep : Timestep ℝ).typ 0 = 0 := typ0
  have e1 : (mixStep : Timestep ℝ).typ 1 = 1 := typ1
  have hpos : typeCount Selector.default (mixStep : Timestep ℝ) 0 = 1 ∧ typeCount Selector.default (mixStep : Timestep ℝ) 1 = 1 := by
    unfold typeCount
    rw [two_picks mixStep rfl rfl]
    simp [e0, e1]
  obtain ⟨d', out, h1, _, _, _, _, h2⟩ := C156_lacey p d hinv twoCells (fillable_cart p _ twoCells_cart) (fun _ => rfl) (by rw [hN])
    (by rw [hN]; norm_num) Selector.default usable_default (fun t _ => by rw [hf]; exact ⟨hw, by norm_num [mixStep]⟩) 0 1 1 (by norm_num) (by norm_num) (by
      intro t _ _
      rw [hf, hpos.1, hpos.2]
      exact ⟨one_pos, one_pos⟩)
  obtain ⟨J, j1, j2⟩ := (h2 0 (by rw [hn]; norm_num)).2 (by rw [hf]; exact hv)
  refine ⟨d, d', out, e, h1, J, ?_, ?_⟩
  · rw [j1, hf]; rfl
  · have hm : (meanConc Selector.default (mixStep : Timestep ℝ) 0 1 : ℝ) = 1 / 2 := by
      unfold meanConc
      rw [hpos.1, hpos.2]; norm_num
    rw [hf] at j2
    dsimp only at j2 ⊢
    rw [hm, hN] at j2
    refine j2.trans (le_of_eq ?_)
    norm_num

end Up4
