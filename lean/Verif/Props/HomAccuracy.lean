import Verif.Props.Homogeneity
import Verif.Props.OccupancyAccuracy

set_option linter.unusedSectionVars false

/-! # C153: the homogeneity index in floating-point arithmetic -/

namespace Up4
open F
open Selector (at')

variable {K : Type} [Field K] [LinearOrder K] [IsStrictOrderedRing K] [FloorRing K] [Arith K]

/-- Sums that skip NaN are sums over the numbers. -/
theorem fold_skips (l : List (F K)) (hl : ∀ x ∈ l, x = F.nan ∨ ∃ y, x = fin y) (f : F K → F K) (z : F K) :
    l.foldl (fun s x => if x.isNaN then s else s + f x) z = ((numbers l).map fun y => f (fin y)).foldl (· + ·) z := by
  induction l generalizing z with
  | nil => rfl
  | cons x l ih =>
    have hl' : ∀ x ∈ l, x = F.nan ∨ ∃ y, x = fin y := fun x hx => hl x (by simp [hx])
    rw [List.foldl_cons]
    rcases hl x (by simp) with rfl | ⟨y, rfl⟩
    · rw [if_pos (show (F.nan : F K).isNaN = true from rfl), ih hl']
      rfl
    · rw [if_neg (by simp [F.isNaN]), ih hl']
      rfl

theorem mean_near [LawfulArith K] [RoundedArith K] (V : List K) (N : ℕ) (hk : V.length ≤ N) (hN : 1 ≤ N) (hN50 : N ≤ 2 ^ 50)
    (hd : ∀ v ∈ V, IsDouble v) (B : K) (hB0 : 0 ≤ B) (hB1 : B ≤ 2 ^ 400) (hB : ∀ v ∈ V, |v| ≤ B) :
    ∃ mc, F.sum (V.map fin) / fin (N : K) = fin mc ∧ IsDouble mc ∧ |mc - V.sum / N| ≤ (N + 1) / 2 ^ 52 * B + tiny K ∧ |V.sum / N| ≤ B := by
  have hu := roundoff_pos (K := K)
  have ht := tiny_pos (K := K)
  have hN1 : (1 : K) ≤ N := by exact_mod_cast hN
  have hN0 : (0 : K) < N := by linarith
  have hNb : (N : K) ≤ 2 ^ 50 := by exact_mod_cast hN50
  have hkN : (V.length : K) ≤ N := by exact_mod_cast hk
  have habs : (V.map fun v => |v|).sum ≤ N * B := (sum_le_const V (fun v => v) B hB).trans (mul_le_mul_of_nonneg_right hkN hB0)
  have habs0 : 0 ≤ (V.map fun v => |v|).sum := List.sum_nonneg fun y hy => by
    obtain ⟨x, _, rfl⟩ := List.mem_map.1 hy
    exact abs_nonneg _
  have hh : (4 : K) * (2 ^ 50 * 2 ^ 400) ≤ huge K := by
    unfold huge
    rw [show (4 : K) = 2 ^ 2 by norm_num, ← pow_add, ← pow_add]
    exact pow_le_pow_right₀ one_le_two (by norm_num)
  have hNB : (N : K) * B ≤ 2 ^ 50 * 2 ^ 400 := mul_le_mul hNb hB1 hB0 (by positivity)
  obtain ⟨s, s1, s2, s3⟩ := sum_accurate V hd (by omega) (by
    generalize (2 : K) ^ 50 * 2 ^ 400 = X at hh hNB
    have : 0 ≤ (N : K) * B := by positivity
    linarith)
  have hg := growth (K := K) V.length (by omega)
  have hm : (V.length : K) / 2 ^ 52 ≤ N / 2 ^ 52 := div_le_div_of_nonneg_right hkN (by positivity)
  have s4 : |s - V.sum| ≤ N / 2 ^ 52 * (N * B) := by
    refine s3.trans (mul_le_mul (by linarith) habs habs0 (by positivity))
  have hq : (N : K) / 2 ^ 52 ≤ 1 / 4 := by
    have e52 : (2 : K) ^ 52 = 4 * 2 ^ 50 := by norm_num
    rw [div_le_iff₀ (by positivity), e52]
    linarith
  have hNB0 : 0 ≤ (N : K) * B := by positivity
  have s5 : |s| ≤ 2 * (N * B) := by
    have h1 := abs_sub_abs_le_abs_sub s V.sum
    have h2 := abs_sum_le V
    have h3 := mul_le_mul_of_nonneg_right hq hNB0
    linarith
  have s6 : |s / N| ≤ 2 * B := by
    rw [abs_div, abs_of_pos hN0, div_le_iff₀ hN0]
    linarith
  obtain ⟨mc, hmc⟩ := RoundedArith.rnd_finite (s / N) (by
    refine s6.trans ?_
    have : B ≤ N * B := le_mul_of_one_le_left hB0 hN1
    generalize (2 : K) ^ 50 * 2 ^ 400 = X at hh hNB
    linarith)
  have m1 := RoundedArith.rnd_err _ _ hmc
  refine ⟨mc, by rw [s1, F.div_fin_ne _ hN0.ne']; exact hmc, double_of_rnd hmc, ?_, ?_⟩
  · have t1 := abs_add_le (mc - s / N) (s / N - V.sum / N)
    rw [show mc - s / N + (s / N - V.sum / N) = mc - V.sum / N by ring] at t1
    have t2 : |s / N - V.sum / N| ≤ N / 2 ^ 52 * B := by
      rw [← sub_div, abs_div, abs_of_pos hN0, div_le_iff₀ hN0]
      refine s4.trans (le_of_eq ?_)
      ring
    have t3 := mul_le_mul_of_nonneg_left s6 hu.le
    have e : roundoff K * (2 * B) = 1 / 2 ^ 52 * B := by unfold roundoff; norm_num; ring
    have e2 : ((N : K) + 1) / 2 ^ 52 * B = N / 2 ^ 52 * B + 1 / 2 ^ 52 * B := by ring
    rw [e2]
    linarith
  · rw [abs_div, abs_of_pos hN0, div_le_iff₀ hN0]
    have h2 := abs_sum_le V
    linarith

/-- The sum of the rounded squares of the rounded differences. -/
theorem squares_near [LawfulArith K] [RoundedArith K] (V : List K) (hk : V.length ≤ 2 ^ 50) (hd : ∀ v ∈ V, IsDouble v) (mc : K) (hmc : IsDouble mc)
    (C : K) (hC1 : C ≤ 2 ^ 403) (hC : ∀ v ∈ V, |v - mc| ≤ C) :
    ∃ (e : K → K) (Q : K), F.sum (V.map fun v => (fin v - fin mc) * (fin v - fin mc)) = fin Q ∧ 0 ≤ Q ∧
      (∀ v ∈ V, |e v - (v - mc)| ≤ roundoff K * |v - mc|) ∧
      |Q - (V.map fun v => e v * e v).sum| ≤ (V.length + 2) / 2 ^ 52 * (V.map fun v => e v * e v).sum + 2 * (V.length * tiny K) ∧
      (V.map fun v => e v * e v).sum ≤ V.length * (2 ^ 404 * 2 ^ 404) := by
  have hu := roundoff_pos (K := K)
  have hu1 := roundoff_le (K := K)
  have ht := tiny_pos (K := K)
  have hk50 : (V.length : K) ≤ 2 ^ 50 := by exact_mod_cast hk
  have h403 : (2 : K) ^ 403 ≤ huge K := pow_le_pow_right₀ one_le_two (by norm_num)
  have hex : ∀ v, ∃ e q, v ∈ V → (fin v - fin mc : F K) = fin e ∧ |e - (v - mc)| ≤ roundoff K * |v - mc| ∧ |e| ≤ 2 ^ 404 ∧
      (fin e * fin e : F K) = fin q ∧ IsDouble q ∧ 0 ≤ q ∧ |q - e * e| ≤ roundoff K * (e * e) + tiny K := by
    intro v
    by_cases hv : v ∈ V
    · obtain ⟨e, he⟩ := RoundedArith.rnd_finite (v - mc) ((hC v hv).trans (hC1.trans h403))
      have h1 := RoundedArith.add_err v (-mc) e (hd v hv) (by unfold IsDouble at hmc ⊢; rw [LawfulArith.rnd_neg, hmc]; rfl) (by rw [← sub_eq_add_neg]; exact he)
      rw [← sub_eq_add_neg] at h1
      have h2 : |e| ≤ 2 ^ 404 := by
        have := abs_sub_abs_le_abs_sub e (v - mc)
        have h3 := mul_le_mul_of_nonneg_right hu1 (abs_nonneg (v - mc))
        have h4 := hC v hv
        rw [show (404 : ℕ) = 403 + 1 from rfl, pow_succ]
        generalize (2 : K) ^ 403 = X at hC1 ⊢
        have := abs_nonneg (v - mc)
        linarith
      have hL : |e| ≤ large K := h2.trans (pow_le_pow_right₀ one_le_two (by norm_num))
      obtain ⟨q, q1, q2, q3, q4, q5⟩ := square_accurate e hL
      refine ⟨e, q, fun _ => ⟨by rw [F.sub_fin]; exact he, h1, h2, q1, q2, q3, ?_⟩⟩
      rw [abs_le]; constructor <;> linarith
    · exact ⟨0, 0, fun h => absurd h hv⟩
  choose e q hq using hex
  set A := (V.map fun v => e v * e v).sum with hA
  have hsq0 : ∀ v, 0 ≤ e v * e v := fun v => mul_self_nonneg _
  have hA0 : 0 ≤ A := List.sum_nonneg fun y hy => by
    obtain ⟨x, _, rfl⟩ := List.mem_map.1 hy
    exact hsq0 x
  have habs : V.map (fun v => |e v * e v|) = V.map fun v => e v * e v := List.map_congr_left fun v _ => abs_of_nonneg (hsq0 v)
  have hAb : A ≤ V.length * (2 ^ 404 * 2 ^ 404) := by
    have := sum_le_const V (fun v => e v * e v) (2 ^ 404 * 2 ^ 404) (fun v hv => by
      rw [abs_mul]
      exact mul_le_mul (hq v hv).2.2.1 (hq v hv).2.2.1 (abs_nonneg _) (by positivity))
    rwa [habs] at this
  have he' : ∀ v ∈ V, |q v - e v * e v| ≤ roundoff K * |e v * e v| + tiny K := fun v hv => by
    rw [abs_of_nonneg (hsq0 v)]
    exact (hq v hv).2.2.2.2.2.2
  have hW := abs_sum_bound V q (fun v => e v * e v) (roundoff K) (tiny K) he'
  have hD := sum_diff V q (fun v => e v * e v) (roundoff K) (tiny K) he'
  rw [habs] at hW hD
  rw [← hA] at hW hD
  have hkt : 0 ≤ (V.length : K) * tiny K := by positivity
  have hkt1 : (V.length : K) * tiny K ≤ 2 ^ 50 := (mul_le_mul hk50 tiny_le_one ht.le (by positivity)).trans (by norm_num)
  have hua := mul_le_mul_of_nonneg_right hu1 hA0
  have hfit : (V.map fun v => |q v|).sum ≤ huge K / 2 := by
    refine hW.trans ?_
    have h1 : (V.length : K) * (2 ^ 404 * 2 ^ 404) ≤ 2 ^ 50 * (2 ^ 404 * 2 ^ 404) := mul_le_mul_of_nonneg_right hk50 (by positivity)
    have e1 : (2 : K) ^ 50 * (2 ^ 404 * 2 ^ 404) = 2 ^ 858 := by simp only [← pow_add]
    have e2 : (2 : K) ^ 50 ≤ 2 ^ 858 := pow_le_pow_right₀ one_le_two (by norm_num)
    have e3 : (4 : K) * 2 ^ 858 ≤ huge K / 2 := by
      have : huge K / 2 = 2 ^ 1022 := by
        unfold huge
        rw [show (1023 : ℕ) = 1022 + 1 from rfl, pow_succ, mul_div_cancel_right₀ _ (by norm_num)]
      rw [this, show (4 : K) = 2 ^ 2 by norm_num, ← pow_add]
      exact pow_le_pow_right₀ one_le_two (by norm_num)
    have h2 := hAb.trans h1
    have h3 := hkt1.trans e2
    rw [e1] at h2
    generalize (2 : K) ^ 858 = X at h2 h3 e3
    rw [add_mul, one_mul]
    linarith only [hua, h2, h3, e3, hA0]
  have ew : (V.map q).map (fun v => |v|) = V.map fun v => |q v| := by rw [List.map_map]; rfl
  obtain ⟨Q, x1, x2, x3⟩ := sum_accurate (V.map q) (fun v hv => by obtain ⟨x, hx, rfl⟩ := List.mem_map.1 hv; exact (hq x hx).2.2.2.2.1)
    (by rw [List.length_map]; omega) (by rw [ew]; exact hfit)
  rw [ew, List.length_map] at x3
  have hg := growth (K := K) V.length (by omega)
  have hs0 : 0 ≤ (V.map fun v => |q v|).sum := List.sum_nonneg fun y hy => by
    obtain ⟨x, _, rfl⟩ := List.mem_map.1 hy
    exact abs_nonneg _
  have hmn : 0 ≤ (V.length : K) / 2 ^ 52 := by positivity
  have hm : (V.length : K) / 2 ^ 52 ≤ 1 / 4 := by
    have e52 : (2 : K) ^ 52 = 4 * 2 ^ 50 := by norm_num
    rw [div_le_iff₀ (by positivity), e52]
    linarith
  have x4 : |Q - (V.map q).sum| ≤ V.length / 2 ^ 52 * ((1 + roundoff K) * A + V.length * tiny K) :=
    x3.trans (mul_le_mul (by linarith) hW hs0 (by positivity))
  have hqs : (V.map q).sum = (V.map fun v => |q v|).sum := by
    congr 1
    exact List.map_congr_left fun v hv => (abs_of_nonneg (hq v hv).2.2.2.2.2.1).symm
  have hQ0 : 0 ≤ Q := by
    have h1 : |Q - (V.map q).sum| ≤ 1 / 4 * (V.map fun v => |q v|).sum := x3.trans (mul_le_mul_of_nonneg_right (by linarith) hs0)
    have h2 := (abs_le.1 h1).1
    rw [hqs] at h2
    linarith
  refine ⟨e, Q, ?_, hQ0, fun v hv => (hq v hv).2.1, ?_, hAb⟩
  · rw [← x1, List.map_map]
    congr 1
    exact List.map_congr_left fun v hv => by
      rw [(hq v hv).1]
      exact (hq v hv).2.2.2.1
  · have q4 := abs_add_le (Q - (V.map q).sum) ((V.map q).sum - A)
    rw [show Q - (V.map q).sum + ((V.map q).sum - A) = Q - A by ring] at q4
    have e1 : ((V.length : K) + 2) / 2 ^ 52 * A = V.length / 2 ^ 52 * A + 4 * (roundoff K * A) := by unfold roundoff; norm_num; ring
    have e2 : (V.length : K) / 2 ^ 52 * ((1 + roundoff K) * A + V.length * tiny K) =
        V.length / 2 ^ 52 * A + V.length / 2 ^ 52 * (roundoff K * A) + V.length / 2 ^ 52 * (V.length * tiny K) := by ring
    have hrA : 0 ≤ roundoff K * A := by positivity
    have k1 := mul_le_mul_of_nonneg_right hm hrA
    have k2 := mul_le_mul_of_nonneg_right hm hkt
    rw [e2] at x4
    rw [e1]
    linarith

/-- The root of a rounded number near `D²`. -/
theorem root_close [LawfulArith K] [RoundedArith K] (D Z ε : K) (hD : 0 ≤ D) (hDb : D ≤ huge K / 4) (hZ : 0 ≤ Z) (hε : 0 ≤ ε) (hε1 : ε ≤ 1 / 2)
    (h : |Z - D * D| ≤ ε * (D * D) + 4 * tiny K) :
    ∃ H, F.sqrt (fin Z) = fin H ∧ 0 ≤ H ∧ |H - D| ≤ (ε + 2 * roundoff K) * D + 2 * speck K := by
  have hu := roundoff_pos (K := K)
  have hu1 := roundoff_le (K := K)
  have ht := tiny_pos (K := K)
  have hsp := speck_pos (K := K)
  have hsp1 := speck_le_one (K := K)
  have hts := tiny_speck (K := K)
  have hss : speck K * speck K = 32 * tiny K := by have := half_speck (K := K); linarith
  obtain ⟨r, hr0, hr⟩ := RoundedArith.root Z hZ
  have h1 := abs_le.1 h
  have hDD := mul_self_nonneg D
  have hεD : 0 ≤ ε * D := mul_nonneg hε hD
  have up : r ≤ D + (ε * D + speck K) := by
    refine nonneg_le_nonneg_of_sq_le_sq (by positivity) ?_
    have e : (D + (ε * D + speck K)) * (D + (ε * D + speck K)) =
        D * D + 2 * (ε * (D * D)) + speck K * speck K + (ε * D) * (ε * D) + 2 * (D * speck K) + 2 * (ε * D * speck K) := by ring
    have p1 : 0 ≤ ε * (D * D) := mul_nonneg hε hDD
    have p2 := mul_self_nonneg (ε * D)
    have p3 := mul_nonneg hD hsp.le
    have p4 := mul_nonneg hεD hsp.le
    rw [e, hr, hss]
    linarith
  have lo : D - (ε * D + speck K) ≤ r := by
    by_cases hc : D - (ε * D + speck K) ≤ 0
    · linarith
    · refine nonneg_le_nonneg_of_sq_le_sq hr0 ?_
      push Not at hc
      set a := (1 - ε) * D with ha
      have ea : D - (ε * D + speck K) = a - speck K := by rw [ha]; ring
      rw [ea] at hc ⊢
      rw [hr]
      have ha0 : 0 ≤ a := mul_nonneg (by linarith) hD
      have q1 : (a - speck K) * (a - speck K) ≤ a * a - speck K * speck K := by
        have e : a * a - speck K * speck K - (a - speck K) * (a - speck K) = 2 * (speck K * (a - speck K)) := by ring
        have : 0 ≤ speck K * (a - speck K) := mul_nonneg hsp.le hc.le
        linarith
      have q2 : a * a ≤ D * D - ε * (D * D) := by
        have e : D * D - ε * (D * D) - a * a = ε * (1 - ε) * (D * D) := by rw [ha]; ring
        have : 0 ≤ ε * (1 - ε) * (D * D) := mul_nonneg (mul_nonneg hε (by linarith)) hDD
        linarith
      rw [hss] at q1
      linarith
  have hh1 : (1 : K) ≤ huge K / 4 := by
    have : (4 : K) ≤ huge K := by
      unfold huge
      calc (4 : K) = 2 ^ 2 := by norm_num
        _ ≤ _ := pow_le_pow_right₀ one_le_two (by norm_num)
    linarith
  have hk := mul_le_mul_of_nonneg_right hε1 hD
  obtain ⟨H, hH⟩ := RoundedArith.sqrt_finite r hr0 (by linarith)
  have e1 := RoundedArith.sqrt_err r H hr0 hH
  rw [hr] at hH
  refine ⟨H, ?_, ?_, ?_⟩
  · unfold F.sqrt
    dsimp only
    rw [if_neg (not_lt.2 hZ)]
    exact hH
  · have := LawfulArith.sqrt_nonneg (K := K) Z hZ
    rw [hH] at this
    have h0 : (fin 0 : F K) ≤ fin H := this
    rwa [F.le_fin] at h0
  · have t1 := abs_add_le (H - r) (r - D)
    rw [show H - r + (r - D) = H - D by ring] at t1
    have t2 : |r - D| ≤ ε * D + speck K := by rw [abs_le]; constructor <;> linarith
    have t3 : roundoff K * r ≤ roundoff K * (2 * D + speck K) := mul_le_mul_of_nonneg_left (by linarith) hu.le
    have t4 : roundoff K * speck K ≤ 1 / 16 * speck K := mul_le_mul_of_nonneg_right hu1 hsp.le
    have e2 : roundoff K * (2 * D + speck K) = 2 * roundoff K * D + roundoff K * speck K := by ring
    have e3 : (ε + 2 * roundoff K) * D = ε * D + 2 * roundoff K * D := by ring
    rw [e2] at t3
    rw [e3]
    linarith

/-- The root mean square of numbers that are close is close. -/
theorem rms_close (V : List K) (a b : K → K) (N : K) (hN : 0 < N) (hk : (V.length : K) ≤ N) (φ D σ : K) (hφ : 0 ≤ φ) (hD : 0 ≤ D) (hσ : 0 ≤ σ)
    (h : ∀ v ∈ V, |a v - b v| ≤ φ) (ha : D * D = (V.map fun v => a v * a v).sum / N) (hb : σ * σ = (V.map fun v => b v * b v).sum / N) :
    D ≤ σ + φ := by
  have key : ∀ t : K, 2 * t * (V.map fun v => |b v|).sum ≤ (V.map fun v => b v * b v).sum + V.length * (t * t) := by
    intro t
    clear hk h ha hb
    induction V with
    | nil => simp
    | cons v V ih =>
      simp only [List.map_cons, List.sum_cons, List.length_cons, Nat.cast_add, Nat.cast_one]
      have := mul_self_nonneg (|b v| - t)
      have e : (|b v| - t) * (|b v| - t) = |b v| * |b v| - 2 * t * |b v| + t * t := by ring
      rw [e, abs_mul_abs_self] at this
      rw [mul_add, add_mul, one_mul]
      linarith
  set s := (V.map fun v => |b v|).sum with hs
  have hs0 : 0 ≤ s := List.sum_nonneg fun y hy => by
    obtain ⟨x, _, rfl⟩ := List.mem_map.1 hy
    exact abs_nonneg _
  have hb' : (V.map fun v => b v * b v).sum = N * (σ * σ) := by rw [hb, mul_div_cancel₀ _ hN.ne']
  have ha' : (V.map fun v => a v * a v).sum = N * (D * D) := by rw [ha, mul_div_cancel₀ _ hN.ne']
  have hsn : s ≤ N * σ := by
    by_contra hc
    push Not at hc
    have k := key (s / N)
    rw [hb'] at k
    set t := s / N with ht
    have hst : s = N * t := by rw [ht, mul_div_cancel₀ _ hN.ne']
    have htσ : σ < t := by
      rw [hst] at hc
      exact lt_of_mul_lt_mul_left hc hN.le
    have k2 : (V.length : K) * (t * t) ≤ N * (t * t) := mul_le_mul_of_nonneg_right hk (mul_self_nonneg t)
    have k3 : N * (σ * σ) < N * (t * t) := mul_lt_mul_of_pos_left (mul_self_lt_mul_self hσ htσ) hN
    have e : 2 * t * s = 2 * (N * (t * t)) := by rw [hst]; ring
    rw [e] at k
    linarith
  have hsum : (V.map fun v => a v * a v).sum ≤ (V.map fun v => b v * b v).sum + 2 * φ * s + V.length * (φ * φ) := by
    rw [hs]
    clear_value s
    clear hk ha hb key hb' ha' hsn hs0 hs
    induction V with
    | nil => simp
    | cons v V ih =>
      simp only [List.map_cons, List.sum_cons, List.length_cons, Nat.cast_add, Nat.cast_one]
      have h1 := ih fun x hx => h x (List.mem_cons_of_mem _ hx)
      have h2 : |a v| ≤ |b v| + φ := by
        have := h v (List.mem_cons_self ..)
        have := abs_sub_abs_le_abs_sub (a v) (b v)
        linarith
      have h3 := mul_self_le_mul_self (abs_nonneg _) h2
      rw [abs_mul_abs_self] at h3
      have e : (|b v| + φ) * (|b v| + φ) = |b v| * |b v| + 2 * φ * |b v| + φ * φ := by ring
      rw [e, abs_mul_abs_self] at h3
      rw [mul_add, add_mul, one_mul]
      linarith
  refine nonneg_le_nonneg_of_sq_le_sq (by positivity) ?_
  rw [ha', hb'] at hsum
  have k2 : (V.length : K) * (φ * φ) ≤ N * (φ * φ) := mul_le_mul_of_nonneg_right hk (mul_self_nonneg φ)
  have k3 : 2 * φ * s ≤ 2 * φ * (N * σ) := mul_le_mul_of_nonneg_left hsn (by linarith)
  have e : N * ((σ + φ) * (σ + φ)) = N * (σ * σ) + 2 * φ * (N * σ) + N * (φ * φ) := by ring
  have : N * (D * D) ≤ N * ((σ + φ) * (σ + φ)) := by rw [e]; linarith
  exact le_of_mul_le_mul_left this hN

/-- The final formula of `homogenity_index` in rounded arithmetic. -/
theorem homogeneity_near [LawfulArith K] [RoundedArith K] (l : List (F K)) (hne : l ≠ []) (hlen : l.length ≤ 2 ^ 50) (B : K) (hB0 : 0 ≤ B) (hB1 : B ≤ 2 ^ 400)
    (hl : ∀ x ∈ l, x = F.nan ∨ ∃ y, x = fin y ∧ IsDouble y ∧ |y| ≤ B) (σ : K) (hσ : 0 ≤ σ)
    (hσσ : σ * σ = ((numbers l).map fun x => (x - (numbers l).sum / l.length) * (x - (numbers l).sum / l.length)).sum / l.length) :
    ∃ H : K, homogeneity l = fin H ∧ 0 ≤ H ∧ |H - σ| ≤ (l.length + 4) / 2 ^ 50 * B + 1 / 2 ^ 500 := by
  have hu := roundoff_pos (K := K)
  have hu1 := roundoff_le (K := K)
  have ht := tiny_pos (K := K)
  have hsp := speck_pos (K := K)
  have hts := tiny_speck (K := K)
  have hl' : ∀ x ∈ l, x = F.nan ∨ ∃ y, x = fin y := fun x hx => (hl x hx).imp id fun ⟨y, h, _⟩ => ⟨y, h⟩
  have hV : ∀ v ∈ numbers l, IsDouble v ∧ |v| ≤ B := by
    intro v hv
    unfold numbers at hv
    obtain ⟨x, hx, rfl⟩ := List.mem_map.1 hv
    obtain ⟨hx1, hx2⟩ := List.mem_filter.1 hx
    rcases hl x hx1 with rfl | ⟨y, rfl, h1, h2⟩
    · simp [F.isNaN] at hx2
    · exact ⟨h1, h2⟩
  have hk : (numbers l).length ≤ l.length := by
    unfold numbers
    rw [List.length_map]
    exact List.length_filter_le _ _
  have hN : 1 ≤ l.length := List.length_pos_iff.2 hne
  have e1 := fold_skips l hl' (fun x => x) (0 : F K)
  obtain ⟨mc, m1, m2, m3, m4⟩ := mean_near (numbers l) l.length hk hN hlen (fun v hv => (hV v hv).1) B hB0 hB1 (fun v hv => (hV v hv).2)
  have e2 := fold_skips l hl' (fun x => (x - fin mc) * (x - fin mc)) (0 : F K)
  have hNN : (1 : K) ≤ l.length := by exact_mod_cast hN
  have hN0 : (0 : K) < l.length := by linarith
  have hN50 : (l.length : K) ≤ 2 ^ 50 := by exact_mod_cast hlen
  have hkN : ((numbers l).length : K) ≤ l.length := by exact_mod_cast hk
  have hh : homogeneity l = (F.sum ((numbers l).map fun v => (fin v - fin mc) * (fin v - fin mc)) / fin (l.length : K)).sqrt := by
    unfold homogeneity
    dsimp only
    rw [e1]
    rw [show (F.ofNat l.length : F K) = fin (l.length : K) from F.rnd_nat _ (by omega)]
    change (F.sqrt ((List.foldl (fun s x => if x.isNaN then s else s + (x - F.sum ((numbers l).map fin) / fin (l.length : K)) * (x - F.sum ((numbers l).map fin) / fin (l.length : K))) 0 l) / fin (l.length : K))) = _
    rw [m1, e2]
    rfl
  rw [hh]
  clear hh e1 e2 m1
  generalize hVV : numbers l = V at *
  generalize hNv : (l.length : K) = N at *
  have e52 : (2 : K) ^ 52 = 4 * 2 ^ 50 := by norm_num
  have hε : (N + 4) / 2 ^ 52 ≤ 1 / 2 := by
    rw [div_le_iff₀ (by positivity), e52]
    have : (4 : K) ≤ 2 ^ 50 := by norm_num
    linarith
  have hb : ∀ c : K, (N + c) / 2 ^ 52 * B = N / 2 ^ 52 * B + c * (1 / 2 ^ 52 * B) := fun c => by ring
  have hNp : 0 ≤ N / 2 ^ 52 := by positivity
  have hNB : 0 ≤ N / 2 ^ 52 * B := mul_nonneg hNp hB0
  have hoB : 0 ≤ 1 / 2 ^ 52 * B := by positivity
  have hεB := mul_le_mul_of_nonneg_right hε hB0
  rw [hb] at m3 hεB
  have hdev : ∀ v ∈ V, |v - V.sum / N| ≤ 2 * B := fun v hv => by
    have := abs_sub v (V.sum / N)
    have := (hV v hv).2
    linarith
  have hdm : ∀ v ∈ V, |v - mc| ≤ 3 * B + tiny K := fun v hv => by
    have := abs_sub_le v (V.sum / N) mc
    rw [abs_sub_comm (V.sum / N) mc] at this
    have := hdev v hv
    linarith
  have h400 : (1 : K) ≤ 2 ^ 400 := one_le_pow₀ one_le_two
  obtain ⟨e, Q, q1, q2, q3, q4, q5⟩ := squares_near V (hk.trans hlen) (fun v hv => (hV v hv).1) mc m2 (3 * B + tiny K) (by
    have := tiny_le_one (K := K)
    rw [show (403 : ℕ) = 400 + 3 from rfl, pow_add]
    generalize (2 : K) ^ 400 = X at hB1 h400 ⊢
    norm_num
    linarith) hdm
  set A := (V.map fun v => e v * e v).sum with hA
  have hA0 : 0 ≤ A := List.sum_nonneg fun y hy => by
    obtain ⟨x, _, rfl⟩ := List.mem_map.1 hy
    exact mul_self_nonneg _
  obtain ⟨D, hD0, hD⟩ := RoundedArith.root (A / N) (by positivity)
  have hAD : A = N * (D * D) := by rw [hD, mul_div_cancel₀ _ hN0.ne']
  have hDD := mul_self_nonneg D
  have hD404 : D ≤ 2 ^ 404 := by
    refine nonneg_le_nonneg_of_sq_le_sq (by positivity) ?_
    rw [hD, div_le_iff₀ hN0, mul_comm]
    exact q5.trans (mul_le_mul_of_nonneg_right hkN (by positivity))
  have hbig : (2 : K) ^ 404 ≤ huge K / 4 ∧ 4 * ((2 : K) ^ 404 * 2 ^ 404) ≤ huge K / 4 ∧ (1 : K) ≤ 2 ^ 404 * 2 ^ 404 := by
    have : huge K / 4 = 2 ^ 1021 := by
      unfold huge
      rw [show (4 : K) = 2 ^ 2 by norm_num, show (1023 : ℕ) = 1021 + 2 from rfl, pow_add, mul_div_cancel_right₀ _ (by positivity)]
    rw [this]
    refine ⟨pow_le_pow_right₀ one_le_two (by norm_num), ?_, ?_⟩
    · rw [show (4 : K) = 2 ^ 2 by norm_num, ← pow_add, ← pow_add]
      exact pow_le_pow_right₀ one_le_two (by norm_num)
    · rw [← pow_add]
      exact one_le_pow₀ one_le_two
  have hDs : D * D ≤ 2 ^ 404 * 2 ^ 404 := mul_self_le_mul_self hD0 hD404
  have hkt : (V.length : K) * tiny K ≤ N * tiny K := mul_le_mul_of_nonneg_right hkN ht.le
  have hkA : ((V.length : K) + 2) / 2 ^ 52 * A ≤ (N + 2) / 2 ^ 52 * A :=
    mul_le_mul_of_nonneg_right (div_le_div_of_nonneg_right (by linarith) (by positivity)) hA0
  have hQ : |Q / N - D * D| ≤ (N + 2) / 2 ^ 52 * (D * D) + 2 * tiny K := by
    rw [hD, ← sub_div, abs_div, abs_of_pos hN0, div_le_iff₀ hN0]
    have : ((N + 2) / 2 ^ 52 * (A / N) + 2 * tiny K) * N = (N + 2) / 2 ^ 52 * A + 2 * (N * tiny K) := by field_simp
    rw [this]
    linarith
  have hb2 : ∀ c X : K, (N + c) / 2 ^ 52 * X = N / 2 ^ 52 * X + c * (1 / 2 ^ 52 * X) := fun c X => by ring
  have hN2 : (N + 2) / 2 ^ 52 * (D * D) ≤ 1 / 2 * (D * D) := mul_le_mul_of_nonneg_right (by
    refine le_trans ?_ hε
    exact div_le_div_of_nonneg_right (by linarith) (by positivity)) hDD
  have hQ0 : 0 ≤ Q / N := div_nonneg q2 hN0.le
  have hQ1 : Q / N ≤ 3 / 2 * (D * D) + 2 * tiny K := by have := (abs_le.1 hQ).2; linarith
  obtain ⟨Z, hZ⟩ := RoundedArith.rnd_finite (Q / N) (by
    rw [abs_of_nonneg hQ0]
    have b1 := tiny_le_one (K := K)
    have b2 := hbig.2.1
    have b3 := hbig.2.2
    have b4 := huge_pos (K := K)
    generalize (2 : K) ^ 404 * 2 ^ 404 = X at b2 b3 hDs
    linarith only [b1, b2, b3, b4, hDs, hQ1])
  have z1 := RoundedArith.rnd_err _ _ hZ
  rw [abs_of_nonneg hQ0] at z1
  have hZ0 : 0 ≤ Z := by
    have := LawfulArith.rnd_mono (K := K) 0 (Q / N) hQ0
    rw [F.rnd_zero, hZ, F.le_fin] at this
    exact this
  have hu52 : roundoff K = 1 / 2 * (1 / 2 ^ 52) := by unfold roundoff; norm_num
  have hZD : |Z - D * D| ≤ (N + 3) / 2 ^ 52 * (D * D) + 4 * tiny K := by
    have t1 := abs_add_le (Z - Q / N) (Q / N - D * D)
    rw [show Z - Q / N + (Q / N - D * D) = Z - D * D by ring] at t1
    have t2 := mul_le_mul_of_nonneg_left hQ1 hu.le
    have e3 : roundoff K * (3 / 2 * (D * D) + 2 * tiny K) = 3 / 4 * (1 / 2 ^ 52 * (D * D)) + 2 * (roundoff K * tiny K) := by rw [hu52]; ring
    have t3 := mul_le_mul_of_nonneg_right hu1 ht.le
    have t4 : 0 ≤ 1 / 2 ^ 52 * (D * D) := by positivity
    rw [e3] at t2
    rw [hb2] at hQ ⊢
    linarith
  obtain ⟨H, h1, h2, h3⟩ := root_close D Z ((N + 3) / 2 ^ 52) hD0 (hD404.trans hbig.1) hZ0 (by positivity) (by
    refine le_trans ?_ hε
    exact div_le_div_of_nonneg_right (by linarith) (by positivity)) hZD
  refine ⟨H, by rw [q1, F.div_fin_ne _ hN0.ne', hZ]; exact h1, h2, ?_⟩
  set φ : K := (N + 3) / 2 ^ 52 * B + 2 * tiny K with hφ
  have hφ0 : 0 ≤ φ := by positivity
  have hclose : ∀ v ∈ V, |e v - (v - V.sum / N)| ≤ φ := by
    intro v hv
    have t1 := abs_add_le (e v - (v - mc)) (V.sum / N - mc)
    rw [show e v - (v - mc) + (V.sum / N - mc) = e v - (v - V.sum / N) by ring, abs_sub_comm (V.sum / N) mc] at t1
    have t2 := q3 v hv
    have t3 := mul_le_mul_of_nonneg_left (hdm v hv) hu.le
    have e3 : roundoff K * (3 * B + tiny K) = 3 / 2 * (1 / 2 ^ 52 * B) + roundoff K * tiny K := by rw [hu52]; ring
    have t4 := mul_le_mul_of_nonneg_right hu1 ht.le
    rw [e3] at t3
    rw [hφ, hb]
    linarith
  have r1 := rms_close V e (fun v => v - V.sum / N) N hN0 hkN φ D σ hφ0 hD0 hσ hclose hD hσσ
  have r2 := rms_close V (fun v => v - V.sum / N) e N hN0 hkN φ σ D hφ0 hσ hD0 (fun v hv => by rw [abs_sub_comm]; exact hclose v hv) hσσ hD
  have r3 := rms_close V (fun v => v - V.sum / N) (fun _ => 0) N hN0 hkN (2 * B) σ 0 (by linarith) hσ le_rfl (fun v hv => by rw [sub_zero]; exact hdev v hv) hσσ (by simp)
  have hφB : φ ≤ B + 2 * tiny K := by rw [hφ, hb]; linarith
  have t1 := abs_add_le (H - D) (D - σ)
  rw [show H - D + (D - σ) = H - σ by ring] at t1
  have t2 : |D - σ| ≤ φ := by rw [abs_le]; constructor <;> linarith
  have e4 : (N + 3) / 2 ^ 52 + 2 * roundoff K = (N + 4) / 2 ^ 52 := by rw [hu52]; ring
  rw [e4] at h3
  have hD3 : D ≤ 3 * B + 2 * tiny K := by linarith
  have t3 : (N + 4) / 2 ^ 52 * D ≤ (N + 4) / 2 ^ 52 * (3 * B + 2 * tiny K) := mul_le_mul_of_nonneg_left hD3 (by positivity)
  have t4 : (N + 4) / 2 ^ 52 * (2 * tiny K) ≤ 1 / 2 * (2 * tiny K) := mul_le_mul_of_nonneg_right hε (by positivity)
  have e5 : (N + 4) / 2 ^ 52 * (3 * B + 2 * tiny K) = 3 * ((N + 4) / 2 ^ 52 * B) + (N + 4) / 2 ^ 52 * (2 * tiny K) := by ring
  have e6 : (N + 4) / 2 ^ 50 * B = 4 * ((N + 4) / 2 ^ 52 * B) := by rw [e52]; ring
  have e7 : 3 * speck K ≤ 1 / 2 ^ 500 := by
    have : (1 : K) / 2 ^ 500 = 2 ^ 35 * speck K := by
      unfold speck
      rw [show (535 : ℕ) = 500 + 35 from rfl, pow_add]
      field_simp
    rw [this]
    exact mul_le_mul_of_nonneg_right (by norm_num) hsp.le
  rw [e5] at t3
  rw [e6]
  rw [hφ] at t2
  rw [hb] at t2 t3 ⊢
  linarith

/-- The layer averages that `collapse_two` gives (exact arithmetic). -/
theorem layers_collapse [LawfulArith K] [ExactArith K] (p : Profile) (d : Dm (Timestep K)) (hd : d.CanLook) (hn : 3 ≤ d.n) (τ : ℕ → K)
    (hτ : ∀ t, t < d.n → (d.file t).time = fin (τ t)) (grid : Grid K)
    (hg : IsCart grid ∨ (grid.Fillable p ∧ ∃ cg, grid.geom = .cyl cg))
    (hfresh : ∀ c, grid.st.weight.get c = 0)
    (sel : Selector K) (hs : sel.Usable) (hw : ∀ t, t < d.n → (d.file t).Wf) (minV : F K) :
    ∃ d' g' r, occupancyfield p d grid sel minV = .ok (d', g') ∧ g'.collapseTwo 0 1 = .ok r ∧ r.toList = layerMeans g' := by
  obtain ⟨d', g', h1, _, h2, h3, h4, h4', hT0, hC, h5⟩ := C37_cells p d hd hn τ hτ grid hg hfresh sel hs hw minV
  have hfd : FinOrNaN g'.st.data := by
    intro c _
    obtain ⟨_, q1, q2⟩ := h5 c
    by_cases h0 : (((samples sel d.file (List.range (d.n - 3))).filter (counts d.file grid.geom minV)).map
      fun x : ℕ × ℕ => τ (x.1 + 1) - τ x.1).sum = 0
    · exact Or.inl (q1 h0)
    · exact Or.inr ⟨_, q2 h0⟩
  have hfw : FinNonneg g'.st.weight := by
    intro c _
    refine ⟨_, (h5 c).1, ?_⟩
    apply List.sum_nonneg
    intro y hy
    obtain ⟨x, _, rfl⟩ := List.mem_map.1 hy
    exact share_nonneg _ _ _ _ _
  obtain ⟨r, r1, _, r3, r4⟩ := C13_collapseTwo g' (h4'.2.trans h4'.1.symm) hfd hfw 0 1 2 (by decide) (by decide) (by decide)
  have hl : r.toList = layerMeans g' := by
    unfold Arr.toList layerMeans
    rw [r3, h4'.1]
    have : indices 1 (fun _ => g'.geom.cells 2) = (List.range (g'.geom.cells 2)).map fun i => fun _ => i := by
      unfold indices
      simp only [indices]
      generalize g'.geom.cells 2 = N
      induction N with
      | zero => rfl
      | succ N ih =>
        rw [List.range_succ, List.flatMap_append, List.map_append, ih]
        simp only [List.flatMap_cons, List.flatMap_nil, List.append_nil, List.map_cons, List.map_nil]
        congr 2
        funext j; fin_cases j; rfl
    rw [this, List.map_map]
    apply List.map_congr_left
    intro i hi
    have := r4 i (by rw [h4'.1]; exact List.mem_range.1 hi)
    rw [Function.comp, this, h4'.1]
  exact ⟨d', g', r, h1, r1, hl⟩

/-- **C153 (partial).** The full property: the index is near the standard deviation of the layer averages. Proved, in rounded arithmetic: with `L` the averages of the height
layers that `collapse_two` gives for the occupancy field (NaN or numbers up to `B ≤ 2^400`; at most `2^50` layers), the index is a number `H ≥ 0`. If no layer is NaN, it differs from
the standard deviation `σ` of `L` by at most `(n + 4)/2^50 · B + 2^-500`; also if the layers agree and `σ = 0`. In general it is that near the root of `Σ (x - m)² / n`,
where the sum and `m = Σ x / n` range over the numbers of `L`, and `n` counts all layers. Missing: with a layer that is NaN this is not a standard deviation (`C41_false`). -/
theorem C153_index_partial [LawfulArith K] [RoundedArith K] (p : Profile) (d d' : Dm (Timestep K)) (grid g' : Grid K) (sel : Selector K) (minV : F K) (r : Arr 1 (F K))
    (h1 : occupancyfield p d grid sel minV = .ok (d', g')) (h2 : g'.collapseTwo 0 1 = .ok r) (hne : r.toList ≠ []) (hlen : r.toList.length ≤ 2 ^ 50)
    (B : K) (hB0 : 0 ≤ B) (hB1 : B ≤ 2 ^ 400) (hL : ∀ x ∈ r.toList, x = F.nan ∨ ∃ y, x = fin y ∧ IsDouble y ∧ |y| ≤ B) :
    ∃ H, homogenityIndex p d grid sel minV = .ok (d', fin H) ∧ 0 ≤ H ∧
      (∀ (v : List K) (σ : K), r.toList = v.map F.fin → 0 ≤ σ → σ * σ = meanSqDev v → |H - σ| ≤ (r.toList.length + 4) / 2 ^ 50 * B + 1 / 2 ^ 500) ∧
      ∀ σ : K, 0 ≤ σ → (let V := numbers r.toList
          let m := V.sum / r.toList.length
          σ * σ = (V.map fun x => (x - m) ^ 2).sum / r.toList.length) → |H - σ| ≤ (r.toList.length + 4) / 2 ^ 50 * B + 1 / 2 ^ 500 := by
  have hp : (0 : K) < r.toList.length := by exact_mod_cast List.length_pos_iff.2 hne
  obtain ⟨s, s1, s2⟩ := RoundedArith.root (((numbers r.toList).map fun x => (x - (numbers r.toList).sum / r.toList.length) * (x - (numbers r.toList).sum / r.toList.length)).sum
    / (r.toList.length : K)) (div_nonneg (List.sum_nonneg fun y hy => by
      obtain ⟨x, _, rfl⟩ := List.mem_map.1 hy
      exact mul_self_nonneg _) hp.le)
  obtain ⟨H, k1, k2, k3⟩ := homogeneity_near r.toList hne hlen B hB0 hB1 hL s s1 s2
  have hgen : ∀ σ : K, 0 ≤ σ → σ * σ = ((numbers r.toList).map fun x => (x - (numbers r.toList).sum / r.toList.length) ^ 2).sum / (r.toList.length : K) →
      |H - σ| ≤ (r.toList.length + 4) / 2 ^ 50 * B + 1 / 2 ^ 500 := by
    intro σ h0 h
    simp only [pow_two] at h
    have : σ = s := by rw [← mul_self_inj h0 s1, h, s2]
    rw [this]
    exact k3
  refine ⟨H, ?_, k2, fun v σ hv h0 hσ => hgen σ h0 ?_, fun σ h0 h => hgen σ h0 h⟩
  · unfold homogenityIndex
    rw [h1, run_bind_ok]
    dsimp only
    rw [h2, run_bind_ok, k1]
    rfl
  · have hlv : v.length = r.toList.length := by rw [hv, List.length_map]
    rw [numbers_all _ v hv, hσ]
    unfold meanSqDev mean
    rw [hlv]

/-- Case for `C153_index_partial`: four timesteps of the demo dataset in a grid of two layers, the upper one unvisited. -/
example (p : Profile) (kind : Kind) : ∃ (d d' : Dm (Timestep ℝ)) (g' : Grid ℝ) (r : Arr 1 (F ℝ)) (H : ℝ),
    Dm.new p kind demoFile 4 Timestep.default = .ok d ∧
    occupancyfield p d (Grid.newCart ![1, 1, 2] (finLimits (fun _ => 0) (fun _ => 4))) Selector.default 0 = .ok (d', g') ∧
    g'.collapseTwo 0 1 = .ok r ∧ r.toList = [fin 1, F.nan] ∧
    homogenityIndex p d (Grid.newCart ![1, 1, 2] (finLimits (fun _ => 0) (fun _ => 4))) Selector.default 0 = .ok (d', fin H) ∧
    ∀ σ : ℝ, 0 ≤ σ → σ * σ = 1 / 8 → |H - σ| ≤ (2 + 4) / 2 ^ 50 * 1 + 1 / 2 ^ 500 := by
  obtain ⟨d, d', g', H', e, h1, h2, h3, _⟩ := C41_false p kind
  obtain ⟨d0, e0, hd, hf, hn⟩ := Dm.canLook_new p kind demoFile 4 Timestep.default (by norm_num) (by norm_num) (Or.inr (by norm_num [BUFFERSIZE]))
  rw [e] at e0
  cases e0
  obtain ⟨d2, g2, r, k1, k2, k3⟩ := layers_collapse p d hd (by omega) (fun t : ℕ => (t : ℝ)) (by intro t _; rw [hf]; rfl) (Grid.newCart ![1, 1, 2] (finLimits (fun _ => 0) (fun _ => 4)))
    (Or.inl (isCart_new _ _ (fun a => by fin_cases a <;> norm_num))) (fun _ => rfl) Selector.default usable_default (fun t _ => by rw [hf]; exact demoFile_wf t) 0
  rw [h1] at k1
  cases k1
  rw [h2] at k3
  have hlen : r.toList.length = 2 := by rw [k3]; rfl
  obtain ⟨H, j1, _, _, j4⟩ := C153_index_partial p d d' _ g' Selector.default 0 r h1 k2 (by rw [k3]; simp) (by rw [hlen]; norm_num) 1 zero_le_one (one_le_pow₀ one_le_two)
    (by
      rw [k3]
      intro x hx
      simp only [List.mem_cons, List.not_mem_nil, or_false] at hx
      rcases hx with rfl | rfl
      · exact Or.inr ⟨1, rfl, rfl, by norm_num⟩
      · exact Or.inl rfl)
  refine ⟨d, d', g', r, H, e, h1, k2, k3, j1, fun σ h0 hσ => ?_⟩
  have := j4 σ h0 (by
    have hnum : numbers r.toList = [1] := by rw [k3]; simp [numbers, F.isNaN, val]
    rw [hnum, hlen, hσ]
    norm_num)
  rw [hlen] at this
  exact_mod_cast this

end Up4
