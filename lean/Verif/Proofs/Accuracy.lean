import Verif.Rounding
import Verif.Proofs.Store

set_option linter.unusedSectionVars false

/-! Rounding errors of sums, means and speeds. -/

namespace Up4
open F

variable {K : Type} [Field K] [LinearOrder K] [IsStrictOrderedRing K] [FloorRing K] [Arith K]

theorem pow_bound (u : K) (hu : 0 ≤ u) (n : ℕ) (h : (n : K) * u ≤ 1 / 2) : (1 + u) ^ n ≤ 1 + 2 * (n * u) := by
  induction n with
  | zero => simp
  | succ n ih =>
    have hn : (0 : K) ≤ n := Nat.cast_nonneg n
    push_cast at h ⊢
    have h0 : (n : K) * u ≤ 1 / 2 := by nlinarith
    have := ih h0
    rw [pow_succ]
    have h2 : (1 + u) ^ n * (1 + u) ≤ (1 + 2 * (n * u)) * (1 + u) := mul_le_mul_of_nonneg_right this (by linarith)
    nlinarith

theorem foldl_pinf (l : List K) : (l.map fin).foldl (· + ·) (pinf : F K) = pinf := by
  induction l with
  | nil => rfl
  | cons a l ih => exact ih

theorem foldl_ninf (l : List K) : (l.map fin).foldl (· + ·) (ninf : F K) = ninf := by
  induction l with
  | nil => rfl
  | cons a l ih => exact ih

theorem double_of_rnd [LawfulArith K] {x y : K} (h : Arith.rnd x = fin y) : IsDouble y := LawfulArith.rnd_idem x y h

theorem double_zero [LawfulArith K] : IsDouble (0 : K) := by
  have := LawfulArith.rnd_dyadic (K := K) 0 0 (by norm_num) (by norm_num)
  simpa [IsDouble] using this

theorem abs_sum_le (l : List K) : |l.sum| ≤ (l.map fun v => |v|).sum := by
  induction l with
  | nil => simp
  | cons a l ih =>
    rw [List.map_cons, List.sum_cons, List.sum_cons]
    exact (abs_add_le a l.sum).trans (by linarith)

/-- Adding a list of numbers one after the other: the result, if finite, is close to the sum. -/
theorem foldl_err [LawfulArith K] [RoundedArith K] (l : List K) (hl : ∀ v ∈ l, IsDouble v) (a : K) (ha : IsDouble a) (s : K)
    (h : (l.map fin).foldl (· + ·) (fin a) = fin s) :
    IsDouble s ∧ |s - (a + l.sum)| ≤ ((1 + roundoff K) ^ l.length - 1) * (|a| + (l.map fun v => |v|).sum) := by
  induction l generalizing a with
  | nil =>
    simp only [List.map_nil, List.foldl_nil, fin.injEq] at h
    subst h
    exact ⟨ha, by simp⟩
  | cons v l ih =>
    have hu := roundoff_pos (K := K)
    rw [List.map_cons, List.foldl_cons] at h
    change (l.map fin).foldl (· + ·) (Arith.rnd (a + v)) = fin s at h
    cases hr : Arith.rnd (a + v) with
    | nan => exact absurd hr (LawfulArith.rnd_ne_nan _)
    | pinf => rw [hr, foldl_pinf] at h; cases h
    | ninf => rw [hr, foldl_ninf] at h; cases h
    | fin b =>
      rw [hr] at h
      obtain ⟨hd, he⟩ := ih (fun w hw => hl w (by simp [hw])) b (double_of_rnd hr) h
      refine ⟨hd, ?_⟩
      have h1 := RoundedArith.add_err a v b ha (hl v (by simp)) hr
      have h2 : |a + v| ≤ |a| + |v| := abs_add_le a v
      have h3 : |b| ≤ (1 + roundoff K) * (|a| + |v|) := by
        have : |b| ≤ |b - (a + v)| + |a + v| := by
          have := abs_add_le (b - (a + v)) (a + v); rwa [sub_add_cancel] at this
        nlinarith
      rw [List.sum_cons, List.map_cons, List.sum_cons, List.length_cons]
      have hS : 0 ≤ (l.map fun v => |v|).sum := List.sum_nonneg (by simp)
      have hp : 1 ≤ (1 + roundoff K) ^ l.length := one_le_pow₀ (by linarith)
      have h4 : |s - (a + (v + l.sum))| ≤ |s - (b + l.sum)| + |b - (a + v)| := by
        have := abs_add_le (s - (b + l.sum)) (b - (a + v))
        rwa [show s - (b + l.sum) + (b - (a + v)) = s - (a + (v + l.sum)) by ring] at this
      have h5 : ((1 + roundoff K) ^ l.length - 1) * |b| ≤ ((1 + roundoff K) ^ l.length - 1) * ((1 + roundoff K) * (|a| + |v|)) := mul_le_mul_of_nonneg_left h3 (by linarith)
      have h6 : roundoff K * |a + v| ≤ roundoff K * (|a| + |v|) := mul_le_mul_of_nonneg_left h2 hu.le
      have h7 : 0 ≤ roundoff K * (1 + roundoff K) ^ l.length * (l.map fun v => |v|).sum := by positivity
      rw [pow_succ]
      have e : ((1 + roundoff K) ^ l.length * (1 + roundoff K) - 1) * (|a| + (|v| + (l.map fun v => |v|).sum)) =
          ((1 + roundoff K) ^ l.length - 1) * ((1 + roundoff K) * (|a| + |v|)) + ((1 + roundoff K) ^ l.length - 1) * (l.map fun v => |v|).sum +
            roundoff K * (|a| + |v|) + roundoff K * (1 + roundoff K) ^ l.length * (l.map fun v => |v|).sum := by ring
      rw [e]
      linarith [mul_add ((1 + roundoff K) ^ l.length - 1) |b| (l.map fun v => |v|).sum]

/-- No overflow as long as the sum of the absolute values is not huge. -/
theorem foldl_finite [LawfulArith K] [RoundedArith K] (l : List K) (hl : ∀ v ∈ l, IsDouble v) (a : K) (ha : IsDouble a)
    (h : (1 + roundoff K) ^ l.length * (|a| + (l.map fun v => |v|).sum) ≤ huge K) :
    ∃ s, (l.map fin).foldl (· + ·) (fin a) = fin s := by
  induction l generalizing a with
  | nil => exact ⟨a, rfl⟩
  | cons v l ih =>
    have hu := roundoff_pos (K := K)
    rw [List.map_cons, List.sum_cons, List.length_cons, pow_succ] at h
    have hS : 0 ≤ (l.map fun v => |v|).sum := List.sum_nonneg (by simp)
    have hp : 1 ≤ (1 + roundoff K) ^ l.length := one_le_pow₀ (by linarith)
    have h2 : |a + v| ≤ |a| + |v| := abs_add_le a v
    have h0 := abs_nonneg a
    have h0' := abs_nonneg v
    have hA : (1 + roundoff K) * (|a| + |v|) + (l.map fun v => |v|).sum ≤ (1 + roundoff K) * (|a| + (|v| + (l.map fun v => |v|).sum)) := by nlinarith
    have hfit : (1 + roundoff K) ^ l.length * ((1 + roundoff K) * (|a| + |v|) + (l.map fun v => |v|).sum) ≤ huge K := by
      refine le_trans (mul_le_mul_of_nonneg_left hA (by linarith)) ?_
      rw [← mul_assoc]; exact h
    have hx : |a + v| ≤ huge K := by
      refine le_trans ?_ hfit
      have h3 : |a + v| ≤ (1 + roundoff K) * (|a| + |v|) + (l.map fun v => |v|).sum := by nlinarith
      have h4 : 0 ≤ (1 + roundoff K) * (|a| + |v|) + (l.map fun v => |v|).sum := le_trans (abs_nonneg _) h3
      nlinarith
    obtain ⟨b, hb⟩ := RoundedArith.rnd_finite (a + v) hx
    have h1 := RoundedArith.add_err a v b ha (hl v (by simp)) hb
    have h3 : |b| ≤ (1 + roundoff K) * (|a| + |v|) := by
      have : |b| ≤ |b - (a + v)| + |a + v| := by
        have := abs_add_le (b - (a + v)) (a + v); rwa [sub_add_cancel] at this
      nlinarith
    have := ih (fun w hw => hl w (by simp [hw])) b (double_of_rnd hb)
      (le_trans (mul_le_mul_of_nonneg_left (by linarith) (by linarith)) hfit)
    rw [List.map_cons, List.foldl_cons]
    change ∃ s, (l.map fin).foldl (· + ·) (Arith.rnd (a + v)) = fin s
    rw [hb]; exact this

theorem growth (n : ℕ) (h : n ≤ 2 ^ 52) : (1 + roundoff K) ^ n ≤ 1 + n / 2 ^ 52 := by
  have hn : (n : K) ≤ 2 ^ 52 := by exact_mod_cast h
  have := pow_bound (roundoff K) roundoff_pos.le n (by unfold roundoff; rw [mul_one_div, div_le_iff₀ (by norm_num)]; norm_num at hn ⊢; linarith)
  have e : 2 * ((n : K) * roundoff K) = n / 2 ^ 52 := by unfold roundoff; norm_num; ring
  rwa [e] at this

/-- The sum of a list of numbers. -/
theorem sum_accurate [LawfulArith K] [RoundedArith K] (l : List K) (hl : ∀ v ∈ l, IsDouble v) (hlen : l.length ≤ 2 ^ 52)
    (hsum : (l.map fun v => |v|).sum ≤ huge K / 2) :
    ∃ s, F.sum (l.map fin) = fin s ∧ IsDouble s ∧ |s - l.sum| ≤ ((1 + roundoff K) ^ l.length - 1) * (l.map fun v => |v|).sum := by
  have hS : 0 ≤ (l.map fun v => |v|).sum := List.sum_nonneg (by simp)
  have hg := growth (K := K) l.length hlen
  have hn : (l.length : K) ≤ 2 ^ 52 := by exact_mod_cast hlen
  have h2 : (1 + roundoff K) ^ l.length ≤ 2 := by
    refine hg.trans ?_
    have : (l.length : K) / 2 ^ 52 ≤ 1 := by rw [div_le_one (by norm_num)]; exact hn
    linarith
  obtain ⟨s, hs⟩ := foldl_finite l hl 0 double_zero (by
    rw [abs_zero, zero_add]
    calc _ ≤ 2 * (huge K / 2) := mul_le_mul h2 hsum hS (by norm_num)
      _ = huge K := by ring)
  obtain ⟨h3, h4⟩ := foldl_err l hl 0 double_zero s hs
  rw [zero_add, abs_zero, zero_add] at h4
  exact ⟨s, hs, h3, h4⟩

/-- The mean of a list of numbers, as the sum divided by their number. -/
theorem mean_accurate [LawfulArith K] [RoundedArith K] (l : List K) (hne : l ≠ []) (hl : ∀ v ∈ l, IsDouble v) (hlen : l.length < 2 ^ 52)
    (hsum : (l.map fun v => |v|).sum ≤ huge K / 2) :
    ∃ y, F.sum (l.map fin) / fin (l.length : K) = fin y ∧
      |y - l.sum / l.length| ≤ (l.length + 1) / 2 ^ 52 * ((l.map fun v => |v|).sum / l.length) + tiny K := by
  have hu := roundoff_pos (K := K)
  have hS : 0 ≤ (l.map fun v => |v|).sum := List.sum_nonneg (by simp)
  have hn0 : (0 : K) < l.length := by exact_mod_cast List.length_pos_iff.2 hne
  have hn1 : (1 : K) ≤ l.length := by exact_mod_cast List.length_pos_iff.2 hne
  obtain ⟨s, hs, hd, he⟩ := sum_accurate l hl hlen.le hsum
  have hg := growth (K := K) (l.length + 1) hlen
  have hg0 := growth (K := K) l.length hlen.le
  have hnk : (l.length : K) ≤ 2 ^ 52 := by exact_mod_cast hlen.le
  have hP2 : (1 + roundoff K) ^ l.length ≤ 2 := by
    refine hg0.trans ?_
    have : (l.length : K) / 2 ^ 52 ≤ 1 := by rw [div_le_one (by norm_num)]; exact hnk
    linarith
  have hsA : |s| ≤ (1 + roundoff K) ^ l.length * (l.map fun v => |v|).sum := by
    have h1 : |s| ≤ |s - l.sum| + |l.sum| := by
      have := abs_add_le (s - l.sum) l.sum; rwa [sub_add_cancel] at this
    have h2 : |l.sum| ≤ (l.map fun v => |v|).sum := abs_sum_le l
    nlinarith
  have hfin : |s / (l.length : K)| ≤ huge K := by
    rw [abs_div, abs_of_pos hn0, div_le_iff₀ hn0]
    calc |s| ≤ 2 * (huge K / 2) := hsA.trans (mul_le_mul hP2 hsum hS (by norm_num))
      _ = huge K * 1 := by ring
      _ ≤ huge K * l.length := mul_le_mul_of_nonneg_left hn1 huge_pos.le
  obtain ⟨y, hy⟩ := RoundedArith.rnd_finite _ hfin
  refine ⟨y, ?_, ?_⟩
  · rw [hs]
    change (if (l.length : K) = 0 then _ else Arith.rnd (s / (l.length : K))) = fin y
    rw [if_neg hn0.ne', hy]
  · have h1 := RoundedArith.rnd_err _ y hy
    have h2 : |y - l.sum / l.length| ≤ |y - s / l.length| + |s - l.sum| / l.length := by
      have := abs_add_le (y - s / l.length) ((s - l.sum) / l.length)
      rw [abs_div (s - l.sum), abs_of_pos hn0] at this
      rwa [show y - s / (l.length : K) + (s - l.sum) / l.length = y - l.sum / l.length by ring] at this
    rw [abs_div s, abs_of_pos hn0] at h1
    have key : roundoff K * |s| + |s - l.sum| ≤ (l.length + 1) / 2 ^ 52 * (l.map fun v => |v|).sum := by
      rw [pow_succ] at hg
      push_cast at hg
      have h5 : roundoff K * |s| ≤ roundoff K * ((1 + roundoff K) ^ l.length * (l.map fun v => |v|).sum) := mul_le_mul_of_nonneg_left hsA hu.le
      have h6 := mul_le_mul_of_nonneg_right hg hS
      generalize (1 + roundoff K) ^ l.length = P at *
      generalize ((l.length : K) + 1) / 2 ^ 52 = G at *
      nlinarith
    have h7 : (roundoff K * |s| + |s - l.sum|) / l.length ≤ ((l.length + 1) / 2 ^ 52 * (l.map fun v => |v|).sum) / l.length :=
      div_le_div_of_nonneg_right key hn0.le
    rw [add_div, mul_div_assoc, mul_div_assoc] at h7
    linarith

/-! ### Speeds -/

/-- A bound on the components of a velocity, `2^500`. -/
def large (K : Type) [Field K] : K := 2 ^ 500
/-- An absolute error that only matters for speeds near the underflow of squares, `2^-535`. -/
def speck (K : Type) [Field K] : K := 1 / 2 ^ 535

theorem large_pos : 0 < large K := by unfold large; positivity
theorem speck_pos : 0 < speck K := by unfold speck; positivity

theorem large_huge : 64 * (large K * large K) ≤ huge K := by
  have e : huge K = (2 ^ 500 * 2 ^ 500) * (64 * 2 ^ 17) := by
    unfold huge
    rw [show (64 : K) = 2 ^ 6 by norm_num, ← pow_add, ← pow_add, ← pow_add]
  have h : 0 < large K * large K := mul_pos large_pos large_pos
  rw [e]
  change 64 * (large K * large K) ≤ (large K * large K) * (64 * 2 ^ 17)
  have h1 : (64 : K) ≤ 64 * 2 ^ 17 := by norm_num
  calc 64 * (large K * large K) ≤ (64 * 2 ^ 17) * (large K * large K) := mul_le_mul_of_nonneg_right h1 h.le
    _ = _ := by ring

theorem one_le_large : 1 ≤ large K := by unfold large; exact one_le_pow₀ (by norm_num)

theorem half_speck : (speck K / 2) * (speck K / 2) = 8 * tiny K := by
  unfold speck tiny
  have e : (2 : K) ^ 1075 = (2 ^ 535 * 2 ^ 535) * 32 := by
    rw [show (32 : K) = 2 ^ 5 by norm_num, ← pow_add, ← pow_add]
  rw [e]
  have h : (2 : K) ^ 535 ≠ 0 := by positivity
  generalize (2 : K) ^ 535 = r at h
  field_simp
  norm_num

theorem tiny_speck : tiny K ≤ speck K / 16 := by
  unfold speck tiny
  rw [div_div, one_div_le_one_div (by positivity) (by positivity)]
  have : (2 : K) ^ 1075 = 2 ^ 535 * 16 * 2 ^ 536 := by
    rw [show (16 : K) = 2 ^ 4 by norm_num, ← pow_add, ← pow_add]
  rw [this]
  exact le_mul_of_one_le_right (by positivity) (one_le_pow₀ (by norm_num))

theorem tiny_le_one : tiny K ≤ 1 := by
  unfold tiny
  rw [div_le_one (by positivity)]
  exact one_le_pow₀ (by norm_num)

theorem speck_le_one : speck K ≤ 1 := by
  unfold speck
  rw [div_le_one (by positivity)]
  exact one_le_pow₀ (by norm_num)

theorem cube_up (u : K) (hu : 0 ≤ u) (h : u ≤ 1 / 16) : (1 + u) ^ 3 ≤ (1 + 2 * u) * (1 + 2 * u) := by
  have e : (1 + 2 * u) * (1 + 2 * u) - (1 + u) ^ 3 = u * (1 + u * (1 - u)) := by ring
  have : 0 ≤ u * (1 + u * (1 - u)) := mul_nonneg hu (add_nonneg (by norm_num) (mul_nonneg hu (by linarith)))
  linarith

theorem cube_down (u : K) (hu : 0 ≤ u) (h : u ≤ 1 / 16) : (1 - 2 * u) * (1 - 2 * u) ≤ (1 - u) ^ 3 := by
  have e : (1 - u) ^ 3 - (1 - 2 * u) * (1 - 2 * u) = u * (1 - u * (1 + u)) := by ring
  have h1 : u * (1 + u) ≤ 1 / 16 * (1 + 1 / 16) := mul_le_mul h (by linarith) (by linarith) (by norm_num)
  have : 0 ≤ u * (1 - u * (1 + u)) := mul_nonneg hu (by linarith)
  linarith

/-- The root of a number that is close to a square. -/
theorem root_accurate [LawfulArith K] [RoundedArith K] (s q : K) (hs : 0 ≤ s) (hsb : s ≤ huge K / 4) (hq : 0 ≤ q)
    (hlo : (1 - roundoff K) ^ 3 * (s * s) - 3 * tiny K ≤ q) (hhi : q ≤ (1 + roundoff K) ^ 3 * (s * s) + 4 * tiny K) :
    ∃ y, F.sqrt (fin q) = fin y ∧ IsDouble y ∧ 0 ≤ y ∧ |y - s| ≤ s / 2 ^ 51 + speck K := by
  have hu := roundoff_pos (K := K)
  have hu1 := roundoff_le (K := K)
  have ht := tiny_pos (K := K)
  have hsp := speck_pos (K := K)
  have hh : (16 : K) ≤ huge K := by
    have := large_huge (K := K); have := one_le_large (K := K); nlinarith
  set r := speck K / 2 with hr
  have hrr : r * r = 8 * tiny K := half_speck
  have hr0 : 0 < r := by positivity
  set u := roundoff K with hudef
  have hss : 0 ≤ s * s := mul_nonneg hs hs
  set hiS := (1 + 2 * u) * s + r with hhiS
  have hiS0 : 0 ≤ hiS := by positivity
  have c1 : q ≤ hiS * hiS := by
    have e : hiS * hiS = (1 + 2 * u) * (1 + 2 * u) * (s * s) + 2 * ((1 + 2 * u) * (s * r)) + r * r := by rw [hhiS]; ring
    have h1 : (1 + u) ^ 3 ≤ (1 + 2 * u) * (1 + 2 * u) := cube_up u hu.le hu1
    have h2 : 0 ≤ (1 + 2 * u) * (s * r) := by positivity
    have h3 := mul_le_mul_of_nonneg_right h1 hss
    rw [e, hrr]; linarith
  have hiB : hiS ≤ huge K := by
    have := speck_le_one (K := K)
    have : (1 + 2 * u) * s ≤ 2 * (huge K / 4) := mul_le_mul (by linarith) hsb hs (by norm_num)
    rw [hhiS]; linarith
  obtain ⟨Y, hY⟩ := RoundedArith.sqrt_finite hiS hiS0 hiB
  have hYe := RoundedArith.sqrt_err hiS Y hiS0 hY
  have m1 := LawfulArith.sqrt_mono q (hiS * hiS) hq c1
  have n1 := LawfulArith.sqrt_nonneg q hq
  rw [hY] at m1
  have hsq : F.sqrt (fin q) = Arith.sqrtK q := by
    change (if q < 0 then _ else Arith.sqrtK q) = _
    rw [if_neg (not_lt.2 hq)]
  rw [hsq]
  cases hy : Arith.sqrtK q with
  | nan => rw [hy] at m1; simp at m1
  | ninf => rw [hy] at n1; simp at n1
  | pinf => rw [hy] at m1; simp at m1
  | fin y =>
    rw [hy] at m1 n1
    rw [F.le_fin] at m1 n1
    refine ⟨y, rfl, RoundedArith.sqrt_double _ _ hy, n1, ?_⟩
    have hts := tiny_speck (K := K)
    have e51 : s / 2 ^ 51 = 4 * (u * s) := by rw [hudef]; unfold roundoff; norm_num; ring
    rw [e51]
    have husr : u * r ≤ speck K / 32 := by
      have := mul_le_mul_of_nonneg_right hu1 hr0.le
      rw [hr] at this ⊢; linarith
    have hus : 0 ≤ u * s := by positivity
    have huus : u * (u * s) ≤ u * s / 16 := by
      have := mul_le_mul_of_nonneg_right hu1 hus; linarith
    rw [abs_le] at hYe ⊢
    constructor
    · rcases le_or_gt ((1 - 2 * u) * s) r with hc | hc
      · have e3 : (1 - 2 * u) * s = s - 2 * (u * s) := by ring
        linarith
      · set loS := (1 - 2 * u) * s - r with hloS
        have loS0 : 0 ≤ loS := by rw [hloS]; linarith
        have c2 : loS * loS ≤ q := by
          have e : loS * loS = (1 - 2 * u) * (1 - 2 * u) * (s * s) - 2 * (((1 - 2 * u) * s) * r) + r * r := by rw [hloS]; ring
          have h1 : (1 - 2 * u) * (1 - 2 * u) ≤ (1 - u) ^ 3 := cube_down u hu.le hu1
          have h3 := mul_le_mul_of_nonneg_right h1 hss
          have h4 : r * r ≤ ((1 - 2 * u) * s) * r := mul_le_mul_of_nonneg_right hc.le hr0.le
          rw [e]; linarith
        have m2 := LawfulArith.sqrt_mono (loS * loS) q (mul_nonneg loS0 loS0) c2
        obtain ⟨Z, hZ⟩ := RoundedArith.sqrt_finite loS loS0 (by
          have e3 : (1 - 2 * u) * s = s - 2 * (u * s) := by ring
          rw [hloS]; linarith)
        have hZe := RoundedArith.sqrt_err loS Z loS0 hZ
        rw [hZ, hy, F.le_fin] at m2
        rw [abs_le] at hZe
        have h1 := hZe.1
        rw [hloS] at h1
        have e4 : u * ((1 - 2 * u) * s - r) = u * s - 2 * (u * (u * s)) - u * r := by ring
        have e3 : (1 - 2 * u) * s = s - 2 * (u * s) := by ring
        have h5 : 0 ≤ u * (u * s) := mul_nonneg hu.le hus
        have h6 : 0 ≤ u * r := mul_nonneg hu.le hr0.le
        rw [e4] at h1
        linarith
    · have h1 := hYe.2
      rw [hhiS] at h1
      have e2 : u * ((1 + 2 * u) * s + r) = u * s + 2 * (u * (u * s)) + u * r := by ring
      rw [e2] at h1
      linarith

theorem square_accurate [LawfulArith K] [RoundedArith K] (x : K) (hx : |x| ≤ large K) :
    ∃ a, fin x * fin x = fin a ∧ IsDouble a ∧ 0 ≤ a ∧ (1 - roundoff K) * (x * x) - tiny K ≤ a ∧ a ≤ (1 + roundoff K) * (x * x) + tiny K := by
  have h0 : 0 ≤ x * x := mul_self_nonneg x
  have hb : x * x ≤ large K * large K := by
    rw [← abs_mul_abs_self x]; exact mul_le_mul hx hx (abs_nonneg _) large_pos.le
  have := large_huge (K := K)
  obtain ⟨a, ha⟩ := RoundedArith.rnd_finite (x * x) (by rw [abs_of_nonneg h0]; nlinarith)
  have he := RoundedArith.rnd_err _ _ ha
  rw [abs_of_nonneg h0, abs_le] at he
  have hm := LawfulArith.rnd_mono (0 : K) (x * x) h0
  have hz : Arith.rnd (0 : K) = fin 0 := double_zero
  rw [ha, hz, F.le_fin] at hm
  exact ⟨a, ha, double_of_rnd ha, hm, by linarith [he.1], by linarith [he.2]⟩

theorem add_accurate [LawfulArith K] [RoundedArith K] (a b : K) (ha : IsDouble a) (hb : IsDouble b) (ha0 : 0 ≤ a) (hb0 : 0 ≤ b)
    (h : a + b ≤ huge K) :
    ∃ c, fin a + fin b = fin c ∧ IsDouble c ∧ 0 ≤ c ∧ (1 - roundoff K) * (a + b) ≤ c ∧ c ≤ (1 + roundoff K) * (a + b) := by
  have h0 : 0 ≤ a + b := add_nonneg ha0 hb0
  obtain ⟨c, hc⟩ := RoundedArith.rnd_finite (a + b) (by rwa [abs_of_nonneg h0])
  have he := RoundedArith.add_err _ _ _ ha hb hc
  rw [abs_of_nonneg h0, abs_le] at he
  have hm := LawfulArith.rnd_mono (0 : K) (a + b) h0
  have hz : Arith.rnd (0 : K) = fin 0 := double_zero
  rw [hc, hz, F.le_fin] at hm
  exact ⟨c, hc, double_of_rnd hc, hm, by linarith [he.1], by linarith [he.2]⟩

theorem root_small (s q : K) (hs : 0 ≤ s) (hss : s * s = q) (hq : q ≤ 4 * (large K * large K)) : s ≤ huge K / 4 := by
  have hL := large_pos (K := K)
  have h1 := one_le_large (K := K)
  have h2 : s ≤ 2 * large K := by
    by_contra hc
    rw [not_le] at hc
    have := mul_lt_mul'' hc hc (by positivity) (by positivity)
    have e : 2 * large K * (2 * large K) = 4 * (large K * large K) := by ring
    rw [e] at this; linarith
  have h3 : large K ≤ large K * large K := le_mul_of_one_le_right hL.le h1
  have := large_huge (K := K)
  linarith

theorem square_bound {x : K} (hx : |x| ≤ large K) : 0 ≤ x * x ∧ x * x ≤ large K * large K :=
  ⟨mul_self_nonneg x, by rw [← abs_mul_abs_self x]; exact mul_le_mul hx hx (abs_nonneg _) large_pos.le⟩

theorem rounded_bound {a q : K} (hq : q ≤ large K * large K) (hq0 : 0 ≤ q) (h : a ≤ (1 + roundoff K) * q + tiny K) : a ≤ 3 * (large K * large K) := by
  have h1 := one_le_large (K := K)
  have h2 : 1 ≤ large K * large K := by nlinarith
  have h3 := tiny_le_one (K := K)
  have h4 := mul_le_mul_of_nonneg_right (roundoff_le (K := K)) hq0
  linarith

/-- The length of a vector of two components, as the code computes it. -/
theorem length2_accurate [LawfulArith K] [RoundedArith K] (x y s : K) (hx : |x| ≤ large K) (hy : |y| ≤ large K)
    (hs : 0 ≤ s) (hss : s * s = x * x + y * y) :
    ∃ w, (fin x * fin x + fin y * fin y).sqrt = fin w ∧ IsDouble w ∧ 0 ≤ w ∧ |w - s| ≤ s / 2 ^ 51 + speck K := by
  have hu := roundoff_pos (K := K)
  have hu1 := roundoff_le (K := K)
  have ht := tiny_pos (K := K)
  have hH := large_huge (K := K)
  obtain ⟨bx0, bx⟩ := square_bound hx
  obtain ⟨by0, by1⟩ := square_bound hy
  obtain ⟨a, ea, da, a0, al, au⟩ := square_accurate x hx
  obtain ⟨b, eb, db, b0, bl, bu⟩ := square_accurate y hy
  have ab := rounded_bound bx bx0 au
  have bb := rounded_bound by1 by0 bu
  have hLL : 0 < large K * large K := mul_pos large_pos large_pos
  obtain ⟨d, ed, dd, d0, dl, du⟩ := add_accurate a b da db a0 b0 (by linarith)
  rw [ea, eb, ed]
  refine root_accurate s d hs (root_small s _ hs hss (by linarith)) d0 ?_ ?_
  · rw [hss]
    have e : (1 - roundoff K) ^ 3 * (x * x + y * y) = (1 - roundoff K) * ((1 - roundoff K) * ((1 - roundoff K) * (x * x + y * y))) := by ring
    have h1 : 0 ≤ (1 - roundoff K) * (x * x + y * y) := mul_nonneg (by linarith) (by linarith)
    have h2 : (1 - roundoff K) * ((1 - roundoff K) * (x * x + y * y)) ≤ (1 - roundoff K) * (x * x + y * y) := by
      have := mul_nonneg hu.le h1; linarith
    have h3 : (1 - roundoff K) * ((1 - roundoff K) * ((1 - roundoff K) * (x * x + y * y))) ≤ (1 - roundoff K) * ((1 - roundoff K) * (x * x + y * y)) :=
      mul_le_mul_of_nonneg_left h2 (by linarith)
    have h4 : (1 - roundoff K) * ((1 - roundoff K) * (x * x + y * y) - 2 * tiny K) ≤ (1 - roundoff K) * (a + b) :=
      mul_le_mul_of_nonneg_left (by linarith) (by linarith)
    have h5 : 0 ≤ roundoff K * tiny K := mul_nonneg hu.le ht.le
    rw [e]; linarith
  · rw [hss]
    have e : (1 + roundoff K) ^ 3 * (x * x + y * y) = (1 + roundoff K) * ((1 + roundoff K) * ((1 + roundoff K) * (x * x + y * y))) := by ring
    have h1 : 0 ≤ (1 + roundoff K) * ((1 + roundoff K) * (x * x + y * y)) := mul_nonneg (by linarith) (mul_nonneg (by linarith) (by linarith))
    have h4 : (1 + roundoff K) * (a + b) ≤ (1 + roundoff K) * ((1 + roundoff K) * (x * x + y * y) + 2 * tiny K) :=
      mul_le_mul_of_nonneg_left (by linarith) (by linarith)
    have h5 : roundoff K * tiny K ≤ 1 / 16 * tiny K := mul_le_mul_of_nonneg_right hu1 ht.le
    have h6 := mul_nonneg hu.le h1
    rw [e]; linarith

/-- The length of a vector of three components, as the code computes it. -/
theorem length3_accurate [LawfulArith K] [RoundedArith K] (x y z s : K) (hx : |x| ≤ large K) (hy : |y| ≤ large K) (hz : |z| ≤ large K)
    (hs : 0 ≤ s) (hss : s * s = x * x + y * y + z * z) :
    ∃ w, (fin x * fin x + fin y * fin y + fin z * fin z).sqrt = fin w ∧ IsDouble w ∧ 0 ≤ w ∧ |w - s| ≤ s / 2 ^ 51 + speck K := by
  have hu := roundoff_pos (K := K)
  have hu1 := roundoff_le (K := K)
  have ht := tiny_pos (K := K)
  have hH := large_huge (K := K)
  obtain ⟨bx0, bx⟩ := square_bound hx
  obtain ⟨by0, by1⟩ := square_bound hy
  obtain ⟨bz0, bz⟩ := square_bound hz
  obtain ⟨a, ea, da, a0, al, au⟩ := square_accurate x hx
  obtain ⟨b, eb, db, b0, bl, bu⟩ := square_accurate y hy
  obtain ⟨c, ec, dc, c0, cl, cu⟩ := square_accurate z hz
  have ab := rounded_bound bx bx0 au
  have bb := rounded_bound by1 by0 bu
  have cb := rounded_bound bz bz0 cu
  have hLL : 0 < large K * large K := mul_pos large_pos large_pos
  obtain ⟨d, ed, dd, d0, dl, du⟩ := add_accurate a b da db a0 b0 (by linarith)
  have hdb : d ≤ 2 * (a + b) := by
    have := mul_le_mul_of_nonneg_right hu1 (add_nonneg a0 b0); linarith
  obtain ⟨e, ee, de, e0, el, eu⟩ := add_accurate d c dd dc d0 c0 (by linarith)
  rw [ea, eb, ec, ed, ee]
  refine root_accurate s e hs (root_small s _ hs hss (by linarith)) e0 ?_ ?_
  · rw [hss]
    set q := x * x + y * y + z * z with hq
    have hlow : (1 - roundoff K) * q - 3 * tiny K ≤ a + b + c := by rw [hq]; linarith
    have h1 : (1 - roundoff K) * (a + b + c) ≤ d + c := by
      have := mul_nonneg hu.le c0; linarith
    have h2 : (1 - roundoff K) * ((1 - roundoff K) * (a + b + c)) ≤ e :=
      le_trans (mul_le_mul_of_nonneg_left h1 (by linarith)) el
    have h3 : (1 - roundoff K) * ((1 - roundoff K) * ((1 - roundoff K) * q - 3 * tiny K)) ≤ e :=
      le_trans (mul_le_mul_of_nonneg_left (mul_le_mul_of_nonneg_left hlow (by linarith)) (by linarith)) h2
    have e1 : (1 - roundoff K) * ((1 - roundoff K) * ((1 - roundoff K) * q - 3 * tiny K)) =
        (1 - roundoff K) ^ 3 * q - 3 * tiny K + 3 * (roundoff K * tiny K) * (2 - roundoff K) := by ring
    have h5 : 0 ≤ 3 * (roundoff K * tiny K) * (2 - roundoff K) := mul_nonneg (by positivity) (by linarith)
    linarith
  · rw [hss]
    set q := x * x + y * y + z * z with hq
    have hup : a + b + c ≤ (1 + roundoff K) * q + 3 * tiny K := by rw [hq]; linarith
    have h1 : d + c ≤ (1 + roundoff K) * (a + b + c) := by
      have := mul_nonneg hu.le c0; linarith
    have h2 : e ≤ (1 + roundoff K) * ((1 + roundoff K) * (a + b + c)) :=
      le_trans eu (mul_le_mul_of_nonneg_left h1 (by linarith))
    have h3 : e ≤ (1 + roundoff K) * ((1 + roundoff K) * ((1 + roundoff K) * q + 3 * tiny K)) :=
      h2.trans (mul_le_mul_of_nonneg_left (mul_le_mul_of_nonneg_left hup (by linarith)) (by linarith))
    have e1 : (1 + roundoff K) * ((1 + roundoff K) * ((1 + roundoff K) * q + 3 * tiny K)) =
        (1 + roundoff K) ^ 3 * q + 3 * tiny K + 3 * ((roundoff K * tiny K) * (2 + roundoff K)) := by ring
    have h5 : roundoff K * tiny K ≤ 1 / 16 * tiny K := mul_le_mul_of_nonneg_right hu1 ht.le
    have h6 : (roundoff K * tiny K) * (2 + roundoff K) ≤ (1 / 16 * tiny K) * (2 + 1 / 16) :=
      mul_le_mul h5 (by linarith) (by linarith) (by linarith)
    linarith

theorem sum_diff {α : Type} (l : List α) (w s : α → K) (δ κ : K) (h : ∀ x ∈ l, |w x - s x| ≤ δ * |s x| + κ) :
    |(l.map w).sum - (l.map s).sum| ≤ δ * (l.map fun x => |s x|).sum + l.length * κ := by
  induction l with
  | nil => simp
  | cons a l ih =>
    have h1 := ih fun x hx => h x (by simp [hx])
    have h2 := h a (by simp)
    simp only [List.map_cons, List.sum_cons, List.length_cons, Nat.cast_add, Nat.cast_one]
    have := abs_add_le (w a - s a) ((l.map w).sum - (l.map s).sum)
    rw [show w a - s a + ((l.map w).sum - (l.map s).sum) = w a + (l.map w).sum - (s a + (l.map s).sum) by ring] at this
    linarith

theorem abs_sum_bound {α : Type} (l : List α) (w s : α → K) (δ κ : K) (h : ∀ x ∈ l, |w x - s x| ≤ δ * |s x| + κ) :
    (l.map fun x => |w x|).sum ≤ (1 + δ) * (l.map fun x => |s x|).sum + l.length * κ := by
  induction l with
  | nil => simp
  | cons a l ih =>
    have h1 := ih fun x hx => h x (by simp [hx])
    have h2 := h a (by simp)
    simp only [List.map_cons, List.sum_cons, List.length_cons, Nat.cast_add, Nat.cast_one]
    have := abs_add_le (w a - s a) (s a)
    rw [sub_add_cancel] at this
    linarith

theorem sum_le_const {α : Type} (l : List α) (s : α → K) (B : K) (h : ∀ x ∈ l, |s x| ≤ B) : (l.map fun x => |s x|).sum ≤ l.length * B := by
  induction l with
  | nil => simp
  | cons a l ih =>
    have h1 := ih fun x hx => h x (by simp [hx])
    have h2 := h a (by simp)
    simp only [List.map_cons, List.sum_cons, List.length_cons, Nat.cast_add, Nat.cast_one]
    linarith

theorem many_fit (n : ℕ) (hn : n < 2 ^ 52) : (n : K) * (8 * large K) ≤ huge K / 2 := by
  have hL := large_pos (K := K)
  have hn : (n : K) ≤ 2 ^ 52 := by exact_mod_cast hn.le
  have h1 : (2 : K) ^ 52 ≤ large K := by unfold large; exact pow_le_pow_right₀ (by norm_num) (by norm_num)
  have h2 : (n : K) * (8 * large K) ≤ large K * (8 * large K) := mul_le_mul_of_nonneg_right (hn.trans h1) (by positivity)
  have h3 := large_huge (K := K)
  have h4 : large K * (8 * large K) = 8 * (large K * large K) := by ring
  have h5 : 0 < large K * large K := mul_pos hL hL
  linarith

/-- The mean of numbers `w` that are close to `s`. -/
theorem mean_of_rounded [LawfulArith K] [RoundedArith K] {α : Type} (l : List α) (w s : α → K) (hne : l ≠ []) (hlen : l.length < 2 ^ 52)
    (hd : ∀ x ∈ l, IsDouble (w x)) (he : ∀ x ∈ l, |w x - s x| ≤ |s x| / 2 ^ 51 + speck K) (hb : ∀ x ∈ l, |s x| ≤ 2 * large K) :
    ∃ y, F.sum (l.map fun x => fin (w x)) / fin (l.length : K) = fin y ∧
      |y - (l.map s).sum / l.length| ≤ (l.length + 5) / 2 ^ 52 * ((l.map fun x => |s x|).sum / l.length) + 4 * speck K := by
  have hsp := speck_pos (K := K)
  have hsp1 := speck_le_one (K := K)
  have hts := tiny_speck (K := K)
  have hL1 := one_le_large (K := K)
  have he' : ∀ x ∈ l, |w x - s x| ≤ (1 / 2 ^ 51) * |s x| + speck K := fun x hx => by
    have := he x hx; rwa [div_eq_mul_one_div, mul_comm] at this
  have hn0 : (0 : K) < l.length := by exact_mod_cast List.length_pos_iff.2 hne
  have hn1 : (l.length : K) + 1 ≤ 2 ^ 52 := by exact_mod_cast hlen
  have hS0 : 0 ≤ (l.map fun x => |s x|).sum := List.sum_nonneg (by simp)
  have hA := abs_sum_bound l w s _ _ he'
  have hD := sum_diff l w s _ _ he'
  have hfit : (l.map fun x => |w x|).sum ≤ huge K / 2 := by
    have h1 := sum_le_const l s _ hb
    have h2 := many_fit (K := K) l.length hlen
    have h3 : (1 : K) / 2 ^ 51 ≤ 1 := by norm_num
    have h4 : (1 + 1 / 2 ^ 51) * (l.map fun x => |s x|).sum ≤ 2 * (l.length * (2 * large K)) := mul_le_mul (by linarith) h1 hS0 (by norm_num)
    have h5 : (l.length : K) * speck K ≤ l.length * (4 * large K) := mul_le_mul_of_nonneg_left (by linarith) hn0.le
    linarith
  obtain ⟨y, h1, h2⟩ := mean_accurate (l.map w) (by simpa using hne) (by simpa using hd) (by simpa using hlen) (by simpa [Function.comp_def] using hfit)
  simp only [List.map_map, Function.comp_def, List.length_map] at h1 h2
  refine ⟨y, h1, ?_⟩
  set m := (l.map fun x => |s x|).sum / (l.length : K) with hm
  have hm0 : 0 ≤ m := div_nonneg hS0 hn0.le
  have h3 : (l.map fun x => |w x|).sum / (l.length : K) ≤ (1 + 1 / 2 ^ 51) * m + speck K := by
    rw [div_le_iff₀ hn0, hm]
    have : ((1 + 1 / 2 ^ 51) * ((l.map fun x => |s x|).sum / (l.length : K)) + speck K) * l.length =
      (1 + 1 / 2 ^ 51) * (l.map fun x => |s x|).sum + l.length * speck K := by field_simp
    rw [this]; exact hA
  have h4 : |(l.map w).sum / (l.length : K) - (l.map s).sum / l.length| ≤ 1 / 2 ^ 51 * m + speck K := by
    rw [← sub_div, abs_div, abs_of_pos hn0, div_le_iff₀ hn0, hm]
    have : (1 / 2 ^ 51 * ((l.map fun x => |s x|).sum / (l.length : K)) + speck K) * l.length =
      1 / 2 ^ 51 * (l.map fun x => |s x|).sum + l.length * speck K := by field_simp
    rw [this]; exact hD
  have h5 := abs_add_le (y - (l.map w).sum / (l.length : K)) ((l.map w).sum / (l.length : K) - (l.map s).sum / l.length)
  rw [sub_add_sub_cancel] at h5
  have hG1 : ((l.length : K) + 1) / 2 ^ 52 ≤ 1 := by rw [div_le_one (by norm_num)]; exact hn1
  have hG0 : 0 ≤ ((l.length : K) + 1) / 2 ^ 52 := by positivity
  have h6 : ((l.length : K) + 1) / 2 ^ 52 * ((l.map fun x => |w x|).sum / l.length) ≤ ((l.length : K) + 1) / 2 ^ 52 * ((1 + 1 / 2 ^ 51) * m + speck K) :=
    mul_le_mul_of_nonneg_left h3 hG0
  have h7 : ((l.length : K) + 1) / 2 ^ 52 * (1 / 2 ^ 51 * m + speck K) ≤ 1 * (1 / 2 ^ 51 * m + speck K) := mul_le_mul_of_nonneg_right hG1 (by positivity)
  have e5 : ((l.length : K) + 5) / 2 ^ 52 * m = ((l.length : K) + 1) / 2 ^ 52 * m + 2 * (1 / 2 ^ 51 * m) := by norm_num; ring
  have e6 : ((l.length : K) + 1) / 2 ^ 52 * ((1 + 1 / 2 ^ 51) * m + speck K) = ((l.length : K) + 1) / 2 ^ 52 * m + ((l.length : K) + 1) / 2 ^ 52 * (1 / 2 ^ 51 * m + speck K) := by ring
  rw [e5]
  linarith

end Up4
