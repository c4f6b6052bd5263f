import Verif.Proofs.Accuracy

set_option linter.unusedSectionVars false

/-!
# The one-pass variance in rounded arithmetic

`granular_temperature_field` computes `Σv² - (Σv)²/n` from running sums. Here: how far the result is from the exact value.
-/

namespace Up4
open F

variable {K : Type} [Field K] [LinearOrder K] [IsStrictOrderedRing K] [FloorRing K] [Arith K]

/-- Cauchy–Schwarz. -/
theorem sum_sq_le (l : List K) : (l.map fun v => |v|).sum * (l.map fun v => |v|).sum ≤ l.length * (l.map fun v => v * v).sum := by
  induction l with
  | nil => simp
  | cons a l ih =>
    simp only [List.map_cons, List.sum_cons, List.length_cons, Nat.cast_add, Nat.cast_one]
    have hA : 0 ≤ (l.map fun v => |v|).sum := List.sum_nonneg (by simp)
    have hE : 0 ≤ (l.map fun v => v * v).sum := List.sum_nonneg (by
      intro x hx; obtain ⟨v, _, rfl⟩ := List.mem_map.1 hx; exact mul_self_nonneg v)
    have h0 : l.length = 0 → (l.map fun v => |v|).sum = 0 := fun h => by rw [List.length_eq_zero_iff.1 h]; rfl
    have ha : a * a = |a| * |a| := (abs_mul_abs_self a).symm
    rw [ha]
    have hb := abs_nonneg a
    generalize |a| = b at hb
    generalize (l.map fun v => |v|).sum = A at *
    generalize (l.map fun v => v * v).sum = E at *
    clear ha
    have key : 2 * (b * A) ≤ l.length * (b * b) + E := by
      by_cases hn : l.length = 0
      · rw [h0 hn, hn]; simp; exact hE
      · have hn' : (0 : K) < l.length := by exact_mod_cast Nat.pos_of_ne_zero hn
        generalize (l.length : K) = n at *
        have h1 := mul_self_nonneg (n * b - A)
        have h2 : n * (2 * (b * A)) ≤ n * (n * (b * b) + E) := by
          have e : (n * b - A) * (n * b - A) = n * (n * (b * b)) - n * (2 * (b * A)) + A * A := by ring
          rw [e] at h1
          rw [mul_add]; linarith
        exact le_of_mul_le_mul_left h2 hn'
    have e1 : (b + A) * (b + A) = b * b + 2 * (b * A) + A * A := by ring
    have e2 : ((l.length : K) + 1) * (b * b + E) = l.length * (b * b) + l.length * E + b * b + E := by ring
    rw [e1, e2]; linarith

theorem mul_fin' (a b : K) : (fin a * fin b : F K) = Arith.rnd (a * b) := rfl

/-- Error of one rounded operation with a bound on the exact result. -/
theorem rnd_near [RoundedArith K] (x b : K) (hx : |x| ≤ b) (hb : b ≤ huge K) :
    ∃ y, Arith.rnd x = fin y ∧ |y - x| ≤ roundoff K * b + tiny K := by
  obtain ⟨y, hy⟩ := RoundedArith.rnd_finite x (hx.trans hb)
  refine ⟨y, hy, (RoundedArith.rnd_err x y hy).trans ?_⟩
  have := mul_le_mul_of_nonneg_left hx (roundoff_pos (K := K)).le
  linarith

/-- The running sums of one component: the sum of squares `Q` and the square `P` of the sum. -/
theorem square_sums [LawfulArith K] [RoundedArith K] (l : List K) (hne : l ≠ []) (hlen : l.length < 2 ^ 52)
    (hl : ∀ v ∈ l, IsDouble v ∧ |v| ≤ large K)
    (hfit : 64 * (l.length * (l.map fun v => v * v).sum) + 64 * l.length ≤ huge K) :
    ∃ Q P, F.sum (l.map fun v => fin v * fin v) = fin Q ∧ F.sum (l.map fin) * F.sum (l.map fin) = fin P ∧ 0 ≤ P ∧
      |Q - (l.map fun v => v * v).sum| ≤ 4 * (l.length * (roundoff K * (l.map fun v => v * v).sum)) + 2 * (l.length * tiny K) ∧
      |P - l.sum * l.sum| ≤ 10 * (l.length * (l.length * (roundoff K * (l.map fun v => v * v).sum))) + tiny K ∧
      l.sum * l.sum ≤ l.length * (l.map fun v => v * v).sum := by
  have hu := roundoff_pos (K := K)
  have hu1 : 64 * roundoff K ≤ 1 := by
    unfold roundoff; rw [mul_one_div, div_le_one (by norm_num)]; norm_num
  have ht := tiny_pos (K := K)
  have ht1 := tiny_le_one (K := K)
  have hn1 : (1 : K) ≤ l.length := by exact_mod_cast List.length_pos_iff.2 hne
  have hn0 : (0 : K) < l.length := by linarith
  have hnu : 2 * (l.length * roundoff K) ≤ 1 := by
    have : (l.length : K) ≤ 2 ^ 52 := by exact_mod_cast hlen.le
    unfold roundoff
    rw [mul_one_div, ← mul_div_assoc, div_le_one (by norm_num)]
    have h2 : (2 : K) ^ 53 = 2 * 2 ^ 52 := by norm_num
    rw [h2]; linarith
  have hgr : (1 + roundoff K) ^ l.length - 1 ≤ 2 * (l.length * roundoff K) := by
    have := growth (K := K) l.length hlen.le
    have e : 2 * ((l.length : K) * roundoff K) = l.length / 2 ^ 52 := by unfold roundoff; norm_num; ring
    rw [e]; linarith
  have hE0 : 0 ≤ (l.map fun v => v * v).sum := List.sum_nonneg (by
      intro x hx; obtain ⟨v, _, rfl⟩ := List.mem_map.1 hx; exact mul_self_nonneg v)
  have hA0 : 0 ≤ (l.map fun v => |v|).sum := List.sum_nonneg (by simp)
  have hcs := sum_sq_le l
  have hmA := abs_sum_le l
  -- the rounded squares
  have hsq : ∀ v ∈ l, ∃ q, fin v * fin v = fin q ∧ IsDouble q ∧ |q - v * v| ≤ roundoff K * |v * v| + tiny K ∧ 0 ≤ q := by
    intro v hv
    obtain ⟨q, h1, h2, h3, h4, h5⟩ := square_accurate v (hl v hv).2
    refine ⟨q, h1, h2, ?_, h3⟩
    rw [abs_of_nonneg (mul_self_nonneg v), abs_le]
    constructor <;> linarith
  classical
  let w : K → K := fun v => if h : v ∈ l then (hsq v h).choose else 0
  have hw : ∀ v ∈ l, fin v * fin v = fin (w v) ∧ IsDouble (w v) ∧ |w v - v * v| ≤ roundoff K * |v * v| + tiny K ∧ 0 ≤ w v := by
    intro v hv
    have e : w v = (hsq v hv).choose := dif_pos hv
    rw [e]; exact (hsq v hv).choose_spec
  have hd := sum_diff l w (fun v => v * v) (roundoff K) (tiny K) fun v hv => (hw v hv).2.2.1
  have habs : (l.map fun v => |v * v|) = l.map fun v => v * v := List.map_congr_left fun v _ => abs_of_nonneg (mul_self_nonneg v)
  rw [habs] at hd
  have habsw : ((l.map w).map fun v => |v|) = l.map w := by
    rw [List.map_map]; exact List.map_congr_left fun v hv => abs_of_nonneg (hw v hv).2.2.2
  set E := (l.map fun v => v * v).sum with hE
  set A := (l.map fun v => |v|).sum with hA
  set W := (l.map w).sum with hW
  set n : K := (l.length : K) with hn
  -- the two error atoms
  obtain ⟨X, hX⟩ : ∃ X, X = n * (roundoff K * E) := ⟨_, rfl⟩
  obtain ⟨Y, hY⟩ : ∃ Y, Y = n * tiny K := ⟨_, rfl⟩
  have hX0 : 0 ≤ X := by rw [hX]; exact mul_nonneg hn0.le (mul_nonneg hu.le hE0)
  have hY0 : 0 ≤ Y := by rw [hY]; exact mul_nonneg hn0.le ht.le
  have hEX : roundoff K * E ≤ X := by rw [hX]; exact le_mul_of_one_le_left (mul_nonneg hu.le hE0) hn1
  have htY : tiny K ≤ Y := by rw [hY]; exact le_mul_of_one_le_left ht.le hn1
  have hXE : 2 * X ≤ E := by
    have : 2 * X = 2 * (n * roundoff K) * E := by rw [hX]; ring
    rw [this]; exact mul_le_of_le_one_left hE0 hnu
  have hYn : Y ≤ n := by rw [hY]; exact mul_le_of_le_one_right hn0.le ht1
  have hnE : E ≤ n * E := le_mul_of_one_le_left hE0 hn1
  have hnE0 : 0 ≤ n * E := hE0.trans hnE
  have nuse : ∀ z, 0 ≤ z → 2 * (n * roundoff K) * z ≤ z := fun z hz => mul_le_of_le_one_left hz hnu
  have usm : ∀ z, 0 ≤ z → 64 * (roundoff K * z) ≤ z := fun z hz => by
    rw [← mul_assoc]; exact mul_le_of_le_one_left hz hu1
  -- the sum of squares
  have hWE : |W - E| ≤ X + Y := hd.trans (by rw [hY]; linarith)
  have hW0 : 0 ≤ W := List.sum_nonneg (by intro x hx; obtain ⟨v, hv, rfl⟩ := List.mem_map.1 hx; exact (hw v hv).2.2.2)
  have hWb : W ≤ E + X + Y := by have := (abs_le.1 hWE).2; linarith
  obtain ⟨Q, hQ, hQd, hQe⟩ := sum_accurate (l.map w) (by
      intro v hv; obtain ⟨u, hu', rfl⟩ := List.mem_map.1 hv; exact (hw u hu').2.1) (by rw [List.length_map]; exact hlen.le)
      (by rw [habsw]; linarith)
  rw [habsw, List.length_map] at hQe
  have hQW : |Q - W| ≤ 2 * X + X + Y := by
    refine hQe.trans ((mul_le_mul_of_nonneg_right hgr hW0).trans ?_)
    have h1 : 2 * (n * roundoff K) * W ≤ 2 * (n * roundoff K) * (E + X + Y) :=
      mul_le_mul_of_nonneg_left hWb (mul_nonneg (by norm_num) (mul_nonneg hn0.le hu.le))
    have h2 := nuse (X + Y) (by linarith)
    have e : 2 * (n * roundoff K) * (E + X + Y) = 2 * X + 2 * (n * roundoff K) * (X + Y) := by rw [hX]; ring
    linarith
  have hQE : |Q - E| ≤ 4 * X + 2 * Y := by
    have := abs_add_le (Q - W) (W - E)
    rw [show Q - W + (W - E) = Q - E by ring] at this
    linarith
  -- the sum
  have hAfit : A ≤ huge K / 2 := by
    by_contra hc
    rw [not_le] at hc
    have hh : (64 : K) ≤ huge K := by linarith
    have h1 : (1 : K) ≤ A := by linarith
    have h2 : A ≤ A * A := le_mul_of_one_le_left hA0 h1
    linarith
  obtain ⟨M, hM, hMd, hMe⟩ := sum_accurate l (fun v hv => (hl v hv).1) hlen.le hAfit
  rw [← hA] at hMe
  set m := l.sum with hm
  have hMm : |M - m| ≤ 2 * (n * roundoff K) * A := hMe.trans (mul_le_mul_of_nonneg_right hgr hA0)
  have hMA : |M| ≤ 2 * A := by
    have := abs_add_le (M - m) m
    rw [sub_add_cancel] at this
    have := nuse A hA0
    linarith
  have hMM : |M * M - m * m| ≤ 6 * (n * X) := by
    have e : M * M - m * m = (M - m) * (M + m) := by ring
    rw [e, abs_mul]
    have h1 : |M + m| ≤ 3 * A := (abs_add_le M m).trans (by linarith)
    refine (mul_le_mul hMm h1 (abs_nonneg _) (mul_nonneg (mul_nonneg (by norm_num) (mul_nonneg hn0.le hu.le)) hA0)).trans ?_
    have e2 : 2 * (n * roundoff K) * A * (3 * A) = 6 * (n * roundoff K) * (A * A) := by ring
    have e3 : 6 * (n * X) = 6 * (n * roundoff K) * (n * E) := by rw [hX]; ring
    rw [e2, e3]
    exact mul_le_mul_of_nonneg_left hcs (mul_nonneg (by norm_num) (mul_nonneg hn0.le hu.le))
  have hM2 : |M * M| ≤ 4 * (n * E) := by
    rw [abs_mul]
    have := mul_le_mul hMA hMA (abs_nonneg _) (by linarith)
    have e : 2 * A * (2 * A) = 4 * (A * A) := by ring
    linarith
  have hm2 : m * m ≤ n * E := by
    have := mul_le_mul hmA hmA (abs_nonneg _) hA0
    rw [abs_mul_abs_self] at this
    exact this.trans hcs
  obtain ⟨P, hP, hPe⟩ := rnd_near (M * M) (4 * (n * E)) hM2 (by linarith)
  have hPm : |P - m * m| ≤ 10 * (n * X) + tiny K := by
    have h1 := abs_add_le (P - M * M) (M * M - m * m)
    rw [show P - M * M + (M * M - m * m) = P - m * m by ring] at h1
    have e : roundoff K * (4 * (n * E)) = 4 * X := by rw [hX]; ring
    rw [e] at hPe
    have : X ≤ n * X := le_mul_of_one_le_left hX0 hn1
    linarith
  have hP0 : 0 ≤ P := by
    have h := LawfulArith.rnd_mono (0 : K) (M * M) (mul_self_nonneg M)
    rw [F.rnd_zero, hP, F.le_fin] at h
    exact h
  refine ⟨Q, P, ?_, ?_, hP0, ?_, ?_, hm2⟩
  · rw [← hQ, List.map_map]
    congr 1
    exact List.map_congr_left fun v hv => (hw v hv).1
  · rw [hM, mul_fin', hP]
  · rw [← hX, ← hY]; exact hQE
  · rw [← hX]; exact hPm

/-- One component: the sum of squares minus the square of the sum over the count. -/
theorem scatter_accurate [LawfulArith K] [RoundedArith K] (l : List K) (hne : l ≠ []) (hlen : l.length < 2 ^ 52)
    (hl : ∀ v ∈ l, IsDouble v ∧ |v| ≤ large K)
    (hfit : 64 * (l.length * (l.map fun v => v * v).sum) + 64 * l.length ≤ huge K) :
    ∃ f, F.sum (l.map fun v => fin v * fin v) - F.sum (l.map fin) * F.sum (l.map fin) / fin (l.length : K) = fin f ∧ IsDouble f ∧
      |f - ((l.map fun v => v * v).sum - l.sum * l.sum / l.length)| ≤
        18 * (l.length * (roundoff K * (l.map fun v => v * v).sum)) + 7 * (l.length * tiny K) := by
  have hu := roundoff_pos (K := K)
  have hu1 : 64 * roundoff K ≤ 1 := by
    unfold roundoff; rw [mul_one_div, div_le_one (by norm_num)]; norm_num
  have ht := tiny_pos (K := K)
  have ht1 := tiny_le_one (K := K)
  have hn1 : (1 : K) ≤ l.length := by exact_mod_cast List.length_pos_iff.2 hne
  have hn0 : (0 : K) < l.length := by linarith
  have hnu : 2 * (l.length * roundoff K) ≤ 1 := by
    have : (l.length : K) ≤ 2 ^ 52 := by exact_mod_cast hlen.le
    unfold roundoff
    rw [mul_one_div, ← mul_div_assoc, div_le_one (by norm_num)]
    have h2 : (2 : K) ^ 53 = 2 * 2 ^ 52 := by norm_num
    rw [h2]; linarith
  have hE0 : 0 ≤ (l.map fun v => v * v).sum := List.sum_nonneg (by
      intro x hx; obtain ⟨v, _, rfl⟩ := List.mem_map.1 hx; exact mul_self_nonneg v)
  obtain ⟨Q, P, hQ, hP, hP0, hQE, hPm, hm2⟩ := square_sums l hne hlen hl hfit
  set E := (l.map fun v => v * v).sum with hE
  set n : K := (l.length : K) with hn
  set m := l.sum with hm
  -- the two error atoms
  obtain ⟨X, hX⟩ : ∃ X, X = n * (roundoff K * E) := ⟨_, rfl⟩
  obtain ⟨Y, hY⟩ : ∃ Y, Y = n * tiny K := ⟨_, rfl⟩
  rw [← hX, ← hY] at hQE
  rw [← hX] at hPm
  have hX0 : 0 ≤ X := by rw [hX]; exact mul_nonneg hn0.le (mul_nonneg hu.le hE0)
  have hY0 : 0 ≤ Y := by rw [hY]; exact mul_nonneg hn0.le ht.le
  have hEX : roundoff K * E ≤ X := by rw [hX]; exact le_mul_of_one_le_left (mul_nonneg hu.le hE0) hn1
  have htY : tiny K ≤ Y := by rw [hY]; exact le_mul_of_one_le_left ht.le hn1
  have hXE : 2 * X ≤ E := by
    have : 2 * X = 2 * (n * roundoff K) * E := by rw [hX]; ring
    rw [this]; exact mul_le_of_le_one_left hE0 hnu
  have hYn : Y ≤ n := by rw [hY]; exact mul_le_of_le_one_right hn0.le ht1
  have hnE : E ≤ n * E := le_mul_of_one_le_left hE0 hn1
  have hnE0 : 0 ≤ n * E := hE0.trans hnE
  have usm : ∀ z, 0 ≤ z → 64 * (roundoff K * z) ≤ z := fun z hz => by
    rw [← mul_assoc]; exact mul_le_of_le_one_left hz hu1
  have hmm0 := mul_self_nonneg m
  have hPn : P / n ≤ E + 10 * X + tiny K := by
    rw [div_le_iff₀ hn0]
    have h1 := (abs_le.1 hPm).2
    have h2 : tiny K ≤ tiny K * n := le_mul_of_one_le_right ht.le hn1
    have e : (E + 10 * X + tiny K) * n = n * E + 10 * (n * X) + tiny K * n := by ring
    linarith
  have hPn0 : 0 ≤ P / n := div_nonneg hP0 hn0.le
  obtain ⟨D, hD, hDe⟩ := rnd_near (P / n) (E + 10 * X + tiny K) (by rw [abs_of_nonneg hPn0]; exact hPn) (by linarith)
  have hPmn : |P / n - m * m / n| ≤ 10 * X + tiny K := by
    rw [← sub_div, abs_div, abs_of_pos hn0, div_le_iff₀ hn0]
    have h2 : tiny K ≤ tiny K * n := le_mul_of_one_le_right ht.le hn1
    have e : (10 * X + tiny K) * n = 10 * (n * X) + tiny K * n := by ring
    linarith
  have hDm : |D - m * m / n| ≤ 12 * X + 3 * Y := by
    have h1 := abs_add_le (D - P / n) (P / n - m * m / n)
    rw [show D - P / n + (P / n - m * m / n) = D - m * m / n by ring] at h1
    have e : roundoff K * (E + 10 * X + tiny K) = roundoff K * E + 10 * (roundoff K * X) + roundoff K * tiny K := by ring
    rw [e] at hDe
    have u1 := usm X hX0
    have u2 := usm (tiny K) ht.le
    linarith
  -- the difference
  have hmn0 : 0 ≤ m * m / n := div_nonneg hmm0 hn0.le
  have hmnE : m * m / n ≤ E := by rw [div_le_iff₀ hn0, mul_comm E]; exact hm2
  have hQD : |Q - D - (E - m * m / n)| ≤ 16 * X + 5 * Y := by
    have h1 := abs_sub (Q - E) (D - m * m / n)
    rw [show Q - E - (D - m * m / n) = Q - D - (E - m * m / n) by ring] at h1
    linarith
  have hQDb : |Q - D| ≤ E + 16 * X + 5 * Y := by
    have h1 := abs_add_le (Q - D - (E - m * m / n)) (E - m * m / n)
    rw [sub_add_cancel] at h1
    have h2 : |E - m * m / n| ≤ E := by rw [abs_of_nonneg (by linarith)]; linarith
    linarith
  obtain ⟨f, hf, hfe⟩ := rnd_near (Q - D) (E + 16 * X + 5 * Y) hQDb (by linarith)
  refine ⟨f, ?_, double_of_rnd hf, ?_⟩
  · rw [hQ, hP]
    have e2 : (fin P / fin n : F K) = fin D := by
      change (if n = 0 then _ else Arith.rnd (P / n)) = fin D
      rw [if_neg hn0.ne', hD]
    rw [e2, F.sub_fin]
    exact hf
  · have h1 := abs_add_le (f - (Q - D)) (Q - D - (E - m * m / n))
    rw [show f - (Q - D) + (Q - D - (E - m * m / n)) = f - (E - m * m / n) by ring] at h1
    have e : roundoff K * (E + 16 * X + 5 * Y) = roundoff K * E + 16 * (roundoff K * X) + 5 * (roundoff K * Y) := by ring
    rw [e] at hfe
    have u1 := usm X hX0
    have u2 := usm Y hY0
    rw [← hX, ← hY]
    linarith

/-- Division of a rounded number by a count. -/
theorem over_count [LawfulArith K] [RoundedArith K] (n f V E X Y : K) (c k : K) (hn1 : 1 ≤ n) (hE0 : 0 ≤ E) (hV0 : 0 ≤ V) (hVE : V ≤ E)
    (hX : X = n * (roundoff K * E)) (hY : Y = n * tiny K) (hc : 0 ≤ c) (hc1 : c ≤ 60) (hk : 0 ≤ k) (hk1 : k ≤ 60)
    (hX1 : 2 * X ≤ E) (hfit : E + c * X + k * Y ≤ huge K) (hf : |f - V| ≤ c * X + k * Y) :
    ∃ t, fin f / fin n = fin t ∧ IsDouble t ∧ |n * t - V| ≤ (c + 2) * X + (k + 2) * Y := by
  have hu := roundoff_pos (K := K)
  have hu1 : 64 * roundoff K ≤ 1 := by
    unfold roundoff; rw [mul_one_div, div_le_one (by norm_num)]; norm_num
  have ht := tiny_pos (K := K)
  have hn0 : (0 : K) < n := by linarith
  have hX0 : 0 ≤ X := by rw [hX]; exact mul_nonneg hn0.le (mul_nonneg hu.le hE0)
  have hY0 : 0 ≤ Y := by rw [hY]; exact mul_nonneg hn0.le ht.le
  have hEX : roundoff K * E ≤ X := by rw [hX]; exact le_mul_of_one_le_left (mul_nonneg hu.le hE0) hn1
  have usm : ∀ z, 0 ≤ z → 64 * (roundoff K * z) ≤ z := fun z hz => by
    rw [← mul_assoc]; exact mul_le_of_le_one_left hz hu1
  have hfb : |f| ≤ E + c * X + k * Y := by
    have h1 := abs_add_le (f - V) V
    rw [sub_add_cancel, abs_of_nonneg hV0] at h1
    linarith
  have hfn : |f / n| ≤ (E + c * X + k * Y) / n := by
    rw [abs_div, abs_of_pos hn0]; exact div_le_div_of_nonneg_right hfb hn0.le
  have hle : (E + c * X + k * Y) / n ≤ huge K := by
    rw [div_le_iff₀ hn0]
    have := le_mul_of_one_le_right (huge_pos (K := K)).le hn1
    linarith
  obtain ⟨t, h1, h2⟩ := rnd_near (f / n) _ hfn hle
  refine ⟨t, ?_, double_of_rnd h1, ?_⟩
  · change (if n = 0 then _ else Arith.rnd (f / n)) = fin t
    rw [if_neg hn0.ne', h1]
  · have e : n * t - V = n * (t - f / n) + (f - V) := by
      rw [mul_sub, mul_div_cancel₀ _ hn0.ne']; ring
    rw [e]
    refine (abs_add_le _ _).trans ?_
    rw [abs_mul, abs_of_pos hn0]
    have h3 := mul_le_mul_of_nonneg_left h2 hn0.le
    have e2 : n * (roundoff K * ((E + c * X + k * Y) / n) + tiny K) = roundoff K * (E + c * X + k * Y) + Y := by
      rw [hY]; field_simp
    rw [e2] at h3
    have u1 := usm X hX0
    have u2 := usm Y hY0
    have e3 : roundoff K * (E + c * X + k * Y) = roundoff K * E + c * (roundoff K * X) + k * (roundoff K * Y) := by ring
    have h4 : c * (roundoff K * X) ≤ 60 * (roundoff K * X) := mul_le_mul_of_nonneg_right hc1 (mul_nonneg hu.le hX0)
    have h5 : k * (roundoff K * Y) ≤ 60 * (roundoff K * Y) := mul_le_mul_of_nonneg_right hk1 (mul_nonneg hu.le hY0)
    have e4 : (c + 2) * X + (k + 2) * Y = c * X + 2 * X + (k * Y + 2 * Y) := by ring
    rw [e4]
    linarith

/-- One component of `dispersion`: the mean of squares minus the square of the mean. -/
theorem part_accurate [LawfulArith K] [RoundedArith K] (l : List K) (hne : l ≠ []) (hlen : l.length < 2 ^ 52)
    (hl : ∀ v ∈ l, IsDouble v ∧ |v| ≤ large K)
    (hfit : 64 * (l.length * (l.map fun v => v * v).sum) + 64 * l.length ≤ huge K) :
    ∃ f, F.sum (l.map fun v => fin v * fin v) / fin (l.length : K) -
        F.sum (l.map fin) * F.sum (l.map fin) / fin (l.length : K) / fin (l.length : K) = fin f ∧
      |l.length * f - ((l.map fun v => v * v).sum - l.sum * l.sum / l.length)| ≤
        24 * (l.length * (roundoff K * (l.map fun v => v * v).sum)) + 14 * (l.length * tiny K) := by
  have hu := roundoff_pos (K := K)
  have hu1 : 64 * roundoff K ≤ 1 := by
    unfold roundoff; rw [mul_one_div, div_le_one (by norm_num)]; norm_num
  have ht := tiny_pos (K := K)
  have ht1 := tiny_le_one (K := K)
  have hn1 : (1 : K) ≤ l.length := by exact_mod_cast List.length_pos_iff.2 hne
  have hn0 : (0 : K) < l.length := by linarith
  have hnu : 2 * (l.length * roundoff K) ≤ 1 := by
    have : (l.length : K) ≤ 2 ^ 52 := by exact_mod_cast hlen.le
    unfold roundoff
    rw [mul_one_div, ← mul_div_assoc, div_le_one (by norm_num)]
    have h2 : (2 : K) ^ 53 = 2 * 2 ^ 52 := by norm_num
    rw [h2]; linarith
  have hE0 : 0 ≤ (l.map fun v => v * v).sum := List.sum_nonneg (by
      intro x hx; obtain ⟨v, _, rfl⟩ := List.mem_map.1 hx; exact mul_self_nonneg v)
  obtain ⟨Q, P, hQ, hP, hP0, hQE, hPm, hm2⟩ := square_sums l hne hlen hl hfit
  set E := (l.map fun v => v * v).sum with hE
  set n : K := (l.length : K) with hn
  set m := l.sum with hm
  -- the two error atoms
  obtain ⟨X, hX⟩ : ∃ X, X = n * (roundoff K * E) := ⟨_, rfl⟩
  obtain ⟨Y, hY⟩ : ∃ Y, Y = n * tiny K := ⟨_, rfl⟩
  rw [← hX, ← hY] at hQE
  rw [← hX] at hPm
  have hX0 : 0 ≤ X := by rw [hX]; exact mul_nonneg hn0.le (mul_nonneg hu.le hE0)
  have hY0 : 0 ≤ Y := by rw [hY]; exact mul_nonneg hn0.le ht.le
  have hEX : roundoff K * E ≤ X := by rw [hX]; exact le_mul_of_one_le_left (mul_nonneg hu.le hE0) hn1
  have htY : tiny K ≤ Y := by rw [hY]; exact le_mul_of_one_le_left ht.le hn1
  have hXE : 2 * X ≤ E := by
    have : 2 * X = 2 * (n * roundoff K) * E := by rw [hX]; ring
    rw [this]; exact mul_le_of_le_one_left hE0 hnu
  have hYn : Y ≤ n := by rw [hY]; exact mul_le_of_le_one_right hn0.le ht1
  have hnE : E ≤ n * E := le_mul_of_one_le_left hE0 hn1
  have hnE0 : 0 ≤ n * E := hE0.trans hnE
  have usm : ∀ z, 0 ≤ z → 64 * (roundoff K * z) ≤ z := fun z hz => by
    rw [← mul_assoc]; exact mul_le_of_le_one_left hz hu1
  have hmm0 := mul_self_nonneg m
  have hPn : P / n ≤ E + 10 * X + tiny K := by
    rw [div_le_iff₀ hn0]
    have h1 := (abs_le.1 hPm).2
    have h2 : tiny K ≤ tiny K * n := le_mul_of_one_le_right ht.le hn1
    have e : (E + 10 * X + tiny K) * n = n * E + 10 * (n * X) + tiny K * n := by ring
    linarith
  have hPn0 : 0 ≤ P / n := div_nonneg hP0 hn0.le
  obtain ⟨D, hD, hDe⟩ := rnd_near (P / n) (E + 10 * X + tiny K) (by rw [abs_of_nonneg hPn0]; exact hPn) (by linarith)
  have hPmn : |P / n - m * m / n| ≤ 10 * X + tiny K := by
    rw [← sub_div, abs_div, abs_of_pos hn0, div_le_iff₀ hn0]
    have h2 : tiny K ≤ tiny K * n := le_mul_of_one_le_right ht.le hn1
    have e : (10 * X + tiny K) * n = 10 * (n * X) + tiny K * n := by ring
    linarith
  have hDm : |D - m * m / n| ≤ 12 * X + 3 * Y := by
    have h1 := abs_add_le (D - P / n) (P / n - m * m / n)
    rw [show D - P / n + (P / n - m * m / n) = D - m * m / n by ring] at h1
    have e : roundoff K * (E + 10 * X + tiny K) = roundoff K * E + 10 * (roundoff K * X) + roundoff K * tiny K := by ring
    rw [e] at hDe
    have u1 := usm X hX0
    have u2 := usm (tiny K) ht.le
    linarith
  have hmn0 : 0 ≤ m * m / n := div_nonneg hmm0 hn0.le
  have hmnE : m * m / n ≤ E := by rw [div_le_iff₀ hn0, mul_comm E]; exact hm2
  obtain ⟨a, ha1, _, ha2⟩ := over_count n Q E E X Y 4 2 hn1 hE0 hE0 le_rfl hX hY (by norm_num) (by norm_num) (by norm_num) (by norm_num)
    hXE (by linarith) hQE
  obtain ⟨b, hb1, _, hb2⟩ := over_count n D (m * m / n) E X Y 12 3 hn1 hE0 hmn0 hmnE hX hY (by norm_num) (by norm_num) (by norm_num) (by norm_num)
    hXE (by linarith) hDm
  have hab : |n * (a - b) - (E - m * m / n)| ≤ 20 * X + 9 * Y := by
    have h1 := abs_sub (n * a - E) (n * b - m * m / n)
    rw [show n * a - E - (n * b - m * m / n) = n * (a - b) - (E - m * m / n) by ring] at h1
    linarith
  have habn : n * |a - b| ≤ E + 20 * X + 9 * Y := by
    have h1 := abs_add_le (n * (a - b) - (E - m * m / n)) (E - m * m / n)
    rw [sub_add_cancel, abs_mul, abs_of_pos hn0] at h1
    have h2 : |E - m * m / n| ≤ E := by rw [abs_of_nonneg (by linarith)]; linarith
    linarith
  have hab1 : |a - b| ≤ E + 20 * X + 9 * Y := (le_mul_of_one_le_left (abs_nonneg _) hn1).trans habn
  obtain ⟨f, hf⟩ := RoundedArith.rnd_finite (a - b) (hab1.trans (by linarith))
  have hfe := RoundedArith.rnd_err _ f hf
  refine ⟨f, ?_, ?_⟩
  · rw [hQ, hP]
    have e2 : (fin P / fin n : F K) = fin D := by
      change (if n = 0 then _ else Arith.rnd (P / n)) = fin D
      rw [if_neg hn0.ne', hD]
    rw [e2, ha1, hb1, F.sub_fin]
    exact hf
  · have e : n * f - (E - m * m / n) = n * (f - (a - b)) + (n * (a - b) - (E - m * m / n)) := by ring
    rw [e]
    refine (abs_add_le _ _).trans ?_
    rw [abs_mul, abs_of_pos hn0]
    have h1 := mul_le_mul_of_nonneg_left hfe hn0.le
    have h2 := mul_le_mul_of_nonneg_left habn hu.le
    have e1 : n * (roundoff K * |a - b| + tiny K) = roundoff K * (n * |a - b|) + Y := by rw [hY]; ring
    have e3 : roundoff K * (E + 20 * X + 9 * Y) = roundoff K * E + 20 * (roundoff K * X) + 9 * (roundoff K * Y) := by ring
    rw [e1] at h1
    rw [e3] at h2
    have u1 := usm X hX0
    have u2 := usm Y hY0
    rw [← hX, ← hY]
    linarith

/-- The root of a rounded mean square. -/
theorem root_of_mean [LawfulArith K] [RoundedArith K] (n t V E X Y : K) (hn1 : 1 ≤ n) (hE0 : 0 ≤ E) (hV0 : 0 ≤ V) (hVE : V ≤ E)
    (hX : X = n * (roundoff K * E)) (hY : Y = n * tiny K) (hX1 : 2 * X ≤ E) (hfit : 64 * E + 64 * n ≤ huge K)
    (hf : |n * t - V| ≤ 40 * X + 40 * Y) :
    (F.sqrt (fin t) = F.nan ∧ V ≤ 40 * X + 40 * Y) ∨
    (∃ y, F.sqrt (fin t) = fin y ∧ 0 ≤ y ∧ |n * (y * y) - V| ≤ 64 * X + 64 * Y) := by
  have hu := roundoff_pos (K := K)
  have hu1 : 64 * roundoff K ≤ 1 := by
    unfold roundoff; rw [mul_one_div, div_le_one (by norm_num)]; norm_num
  have ht := tiny_pos (K := K)
  have ht1 := tiny_le_one (K := K)
  have hn0 : (0 : K) < n := by linarith
  have hX0 : 0 ≤ X := by rw [hX]; exact mul_nonneg hn0.le (mul_nonneg hu.le hE0)
  have hY0 : 0 ≤ Y := by rw [hY]; exact mul_nonneg hn0.le ht.le
  have hYn : Y ≤ n := by rw [hY]; exact mul_le_of_le_one_right hn0.le ht1
  have hEX : roundoff K * E ≤ X := by rw [hX]; exact le_mul_of_one_le_left (mul_nonneg hu.le hE0) hn1
  have usm : ∀ z, 0 ≤ z → 64 * (roundoff K * z) ≤ z := fun z hz => by
    rw [← mul_assoc]; exact mul_le_of_le_one_left hz hu1
  by_cases h0 : t < 0
  · left
    refine ⟨by change (if t < 0 then F.nan else _) = _; rw [if_pos h0], ?_⟩
    have h1 := (abs_le.1 hf).1
    have h2 : n * t ≤ 0 := mul_nonpos_of_nonneg_of_nonpos hn0.le h0.le
    linarith
  · right
    rw [not_lt] at h0
    obtain ⟨r, hr0, hr⟩ := RoundedArith.root t h0
    have hnt : n * t ≤ E + 40 * X + 40 * Y := by have := (abs_le.1 hf).2; linarith
    have htb : t ≤ huge K := by
      have : t ≤ n * t := le_mul_of_one_le_left h0 hn1
      linarith
    have hrb : r ≤ huge K := by
      by_contra hc
      rw [not_le] at hc
      have h1 : (1 : K) ≤ r := by linarith
      have := le_mul_of_one_le_left hr0 h1
      linarith
    obtain ⟨y, hy⟩ := RoundedArith.sqrt_finite r hr0 hrb
    have hye := RoundedArith.sqrt_err r y hr0 hy
    have hy0 : 0 ≤ y := by
      have := LawfulArith.sqrt_nonneg (r * r) (mul_self_nonneg r)
      rw [hy, F.le_fin] at this; exact this
    refine ⟨y, ?_, hy0, ?_⟩
    · change (if t < 0 then F.nan else Arith.sqrtK t) = _
      rw [if_neg (not_lt.2 h0), ← hr, hy]
    · -- |y² - t| ≤ 5 u t + 3 tiny
      have htr : tiny K * r ≤ roundoff K * t + tiny K := by
        by_cases h1 : r ≤ 1
        · have := mul_le_of_le_one_right ht.le h1
          have := mul_nonneg hu.le h0
          linarith
        · rw [not_le] at h1
          have h2 : r ≤ t := by rw [← hr]; exact le_mul_of_one_le_left hr0 h1.le
          have h3 : tiny K ≤ roundoff K := by
            unfold tiny roundoff
            exact one_div_le_one_div_of_le (by positivity) (pow_le_pow_right₀ (by norm_num) (by norm_num))
          have := mul_le_mul h3 h2 hr0 hu.le
          linarith
      have hsq : |y * y - t| ≤ 8 * (roundoff K * t) + 8 * tiny K := by
        have e : y * y - t = (y - r) * (y + r) := by rw [← hr]; ring
        rw [e, abs_mul, abs_of_nonneg (add_nonneg hy0 hr0)]
        have hyr : y + r ≤ 3 * r + tiny K := by
          have := (abs_le.1 hye).2
          have := usm r hr0
          linarith
        refine (mul_le_mul hye hyr (add_nonneg hy0 hr0) (add_nonneg (mul_nonneg hu.le hr0) ht.le)).trans ?_
        have e2 : (roundoff K * r + tiny K) * (3 * r + tiny K) =
            3 * (roundoff K * (r * r)) + roundoff K * (tiny K * r) + 3 * (tiny K * r) + tiny K * tiny K := by ring
        rw [e2, hr]
        have h1 : roundoff K * (tiny K * r) ≤ tiny K * r := mul_le_of_le_one_left (mul_nonneg ht.le hr0) (by linarith)
        have h2 : tiny K * tiny K ≤ tiny K := mul_le_of_le_one_left ht.le ht1
        have := mul_nonneg hu.le h0
        linarith
      have e : n * (y * y) - V = n * (y * y - t) + (n * t - V) := by ring
      rw [e]
      refine (abs_add_le _ _).trans ?_
      rw [abs_mul, abs_of_pos hn0]
      have h3 := mul_le_mul_of_nonneg_left hsq hn0.le
      have e2 : n * (8 * (roundoff K * t) + 8 * tiny K) = 8 * (roundoff K * (n * t)) + 8 * Y := by rw [hY]; ring
      rw [e2] at h3
      have h4 := mul_le_mul_of_nonneg_left hnt hu.le
      have e3 : roundoff K * (E + 40 * X + 40 * Y) = roundoff K * E + 40 * (roundoff K * X) + 40 * (roundoff K * Y) := by ring
      rw [e3] at h4
      have u1 := usm X hX0
      have u2 := usm Y hY0
      linarith

/-- The sum of three rounded numbers over three. -/
theorem third_of_sum [LawfulArith K] [RoundedArith K] (f V E X : Fin 3 → K) (Y : K) (hE0 : ∀ a, 0 ≤ E a) (hV0 : ∀ a, 0 ≤ V a) (hVE : ∀ a, V a ≤ E a)
    (hX0 : ∀ a, 0 ≤ X a) (hXu : ∀ a, roundoff K * E a ≤ X a) (hX1 : ∀ a, 2 * X a ≤ E a) (hYt : tiny K ≤ Y)
    (hfit : 64 * (E 0 + E 1 + E 2) + 64 * Y ≤ huge K) (hf : ∀ a, |f a - V a| ≤ 18 * X a + 7 * Y) :
    ∃ g, (fin (f 0) + fin (f 1) + fin (f 2)) / F.ofNat 3 = fin g ∧
      |g - (V 0 + V 1 + V 2) / 3| ≤ 25 * ((X 0 + X 1 + X 2) / 3) + 20 * Y := by
  have hu := roundoff_pos (K := K)
  have hu1 : 64 * roundoff K ≤ 1 := by
    unfold roundoff; rw [mul_one_div, div_le_one (by norm_num)]; norm_num
  have ht := tiny_pos (K := K)
  have usm : ∀ z, 0 ≤ z → 64 * (roundoff K * z) ≤ z := fun z hz => by
    rw [← mul_assoc]; exact mul_le_of_le_one_left hz hu1
  have hY0 : 0 ≤ Y := by linarith
  have b0 := hf 0; have b1 := hf 1; have b2 := hf 2
  have c0 := hE0 0; have c1 := hE0 1; have c2 := hE0 2
  have d0 := hV0 0; have d1 := hV0 1; have d2 := hV0 2
  have e0 := hVE 0; have e1 := hVE 1; have e2 := hVE 2
  have x0 := hX0 0; have x1 := hX0 1; have x2 := hX0 2
  have u0 := hXu 0; have u1 := hXu 1; have u2 := hXu 2
  have w0 := hX1 0; have w1 := hX1 1; have w2 := hX1 2
  rw [abs_le] at b0 b1 b2
  generalize f 0 = f0 at *; generalize f 1 = f1 at *; generalize f 2 = f2 at *
  generalize V 0 = V0 at *; generalize V 1 = V1 at *; generalize V 2 = V2 at *
  generalize E 0 = E0 at *; generalize E 1 = E1 at *; generalize E 2 = E2 at *
  generalize X 0 = X0 at *; generalize X 1 = X1 at *; generalize X 2 = X2 at *
  have v0 := usm X0 x0; have v1 := usm X1 x1; have v2 := usm X2 x2; have vY := usm Y hY0
  obtain ⟨g1, h1, h1e⟩ := rnd_near (f0 + f1) (E0 + E1 + 18 * X0 + 18 * X1 + 14 * Y) (by rw [abs_le]; constructor <;> linarith) (by linarith)
  have q1 : roundoff K * (E0 + E1 + 18 * X0 + 18 * X1 + 14 * Y) =
    roundoff K * E0 + roundoff K * E1 + 18 * (roundoff K * X0) + 18 * (roundoff K * X1) + 14 * (roundoff K * Y) := by ring
  rw [q1, abs_le] at h1e
  have k1 : |g1 - (V0 + V1)| ≤ 20 * X0 + 20 * X1 + 16 * Y := by rw [abs_le]; constructor <;> linarith
  rw [abs_le] at k1
  obtain ⟨g2, h2, h2e⟩ := rnd_near (g1 + f2) (E0 + E1 + E2 + 20 * X0 + 20 * X1 + 18 * X2 + 23 * Y) (by rw [abs_le]; constructor <;> linarith) (by linarith)
  have q2 : roundoff K * (E0 + E1 + E2 + 20 * X0 + 20 * X1 + 18 * X2 + 23 * Y) =
    roundoff K * E0 + roundoff K * E1 + roundoff K * E2 + 20 * (roundoff K * X0) + 20 * (roundoff K * X1) + 18 * (roundoff K * X2) + 23 * (roundoff K * Y) := by ring
  rw [q2, abs_le] at h2e
  have k2 : |g2 - (V0 + V1 + V2)| ≤ 22 * X0 + 22 * X1 + 20 * X2 + 25 * Y := by rw [abs_le]; constructor <;> linarith
  rw [abs_le] at k2
  obtain ⟨g, h3, h3e⟩ := rnd_near (g2 / 3) ((E0 + E1 + E2 + 22 * X0 + 22 * X1 + 20 * X2 + 25 * Y) / 3) (by rw [abs_le]; constructor <;> linarith) (by linarith)
  have q3 : roundoff K * ((E0 + E1 + E2 + 22 * X0 + 22 * X1 + 20 * X2 + 25 * Y) / 3) =
    (roundoff K * E0 + roundoff K * E1 + roundoff K * E2 + 22 * (roundoff K * X0) + 22 * (roundoff K * X1) + 20 * (roundoff K * X2) + 25 * (roundoff K * Y)) / 3 := by ring
  rw [q3, abs_le] at h3e
  refine ⟨g, ?_, ?_⟩
  · rw [F.add_fin, h1, F.add_fin, h2, F.ofNat_eq 3 (by norm_num)]
    have e : ((3 : ℕ) : K) = 3 := by norm_num
    rw [e]
    change (if (3 : K) = 0 then _ else Arith.rnd (g2 / 3)) = fin g
    rw [if_neg (by norm_num), h3]
  · rw [abs_le]; constructor <;> linarith

end Up4
