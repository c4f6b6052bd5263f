import Verif.Props.Msd
import Verif.Props.OccupancyAccuracy
import Verif.Props.Spread

set_option linter.unusedSectionVars false

/-! # C152: the mean squared displacement in floating-point arithmetic -/

namespace Up4
open F
open Selector (at')

variable {K : Type} [Field K] [LinearOrder K] [IsStrictOrderedRing K] [FloorRing K] [Arith K]

/-- Coordinates an `f64` can hold, up to `2^400`. -/
def StoredPos (x : Pos K) (u : Fin 3 → K) : Prop := ∀ a, x a = fin (u a) ∧ IsDouble (u a) ∧ |u a| ≤ 2 ^ 400

theorem double_neg' [LawfulArith K] {x : K} (h : IsDouble x) : IsDouble (-x) := by
  unfold IsDouble at h ⊢
  rw [LawfulArith.rnd_neg, h]; rfl

/-- A rounded difference of stored coordinates. -/
theorem difference_near [LawfulArith K] [RoundedArith K] (a b : K) (ha : IsDouble a) (hb : IsDouble b) (ha' : |a| ≤ 2 ^ 400) (hb' : |b| ≤ 2 ^ 400) :
    ∃ e, (fin a - fin b : F K) = fin e ∧ |e - (a - b)| ≤ roundoff K * |a - b| ∧ |a - b| ≤ 2 * 2 ^ 400 ∧ |e| ≤ 4 * 2 ^ 400 := by
  have hab : |a - b| ≤ 2 * 2 ^ 400 := (abs_sub a b).trans (by linarith)
  have h401 : (2 : K) * 2 ^ 400 ≤ huge K := by
    unfold huge
    rw [← pow_succ']
    exact pow_le_pow_right₀ one_le_two (by norm_num)
  obtain ⟨e, he⟩ := RoundedArith.rnd_finite (a - b) (hab.trans h401)
  have h1 := RoundedArith.add_err a (-b) e ha (double_neg' hb) (by rw [← sub_eq_add_neg]; exact he)
  rw [← sub_eq_add_neg] at h1
  refine ⟨e, by rw [F.sub_fin]; exact he, h1, hab, ?_⟩
  have h2 := abs_sub_abs_le_abs_sub e (a - b)
  have h3 : roundoff K * |a - b| ≤ 1 * |a - b| := mul_le_mul_of_nonneg_right (roundoff_le.trans (by norm_num)) (abs_nonneg _)
  linarith

/-- Squares of nearby numbers. -/
theorem sq_near {r e d : K} (hr : 0 ≤ r) (hr1 : r ≤ 1) (h : |e - d| ≤ r * |d|) : (1 - r) ^ 2 * (d * d) ≤ e * e ∧ e * e ≤ (1 + r) ^ 2 * (d * d) := by
  have h1 := abs_sub_abs_le_abs_sub e d
  have h2 := abs_sub_abs_le_abs_sub d e
  rw [abs_sub_comm] at h2
  have hd := abs_nonneg d
  have he := abs_nonneg e
  have e1 : |e| ≤ (1 + r) * |d| := by linarith
  have e2 : (1 - r) * |d| ≤ |e| := by linarith
  have k1 := mul_self_le_mul_self he e1
  have k2 := mul_self_le_mul_self (mul_nonneg (by linarith) hd) e2
  rw [abs_mul_abs_self] at k1 k2
  have x1 : (1 + r) * |d| * ((1 + r) * |d|) = (1 + r) ^ 2 * (|d| * |d|) := by ring
  have x2 : (1 - r) * |d| * ((1 - r) * |d|) = (1 - r) ^ 2 * (|d| * |d|) := by ring
  rw [x1, abs_mul_abs_self] at k1
  rw [x2, abs_mul_abs_self] at k2
  exact ⟨k2, k1⟩

/-- The distance between two stored positions, as the code computes it. -/
theorem distance_near [LawfulArith K] [RoundedArith K] (x y : Pos K) (u w : Fin 3 → K) (hx : StoredPos x u) (hy : StoredPos y w) (s : K) (hs : 0 ≤ s)
    (hss : s * s = (u 0 - w 0) * (u 0 - w 0) + (u 1 - w 1) * (u 1 - w 1) + (u 2 - w 2) * (u 2 - w 2)) :
    ∃ T, (F.sq (x 0 - y 0) + F.sq (x 1 - y 1) + F.sq (x 2 - y 2)).sqrt = fin T ∧ IsDouble T ∧ 0 ≤ T ∧ |T - s| ≤ s / 2 ^ 50 + speck K ∧ s ≤ 4 * 2 ^ 400 := by
  have hr := roundoff_pos (K := K)
  have hr1 := roundoff_le (K := K)
  have hd : ∀ a, ∃ e, (x a - y a : F K) = fin e ∧ |e - (u a - w a)| ≤ roundoff K * |u a - w a| ∧ |u a - w a| ≤ 2 * 2 ^ 400 ∧ |e| ≤ 4 * 2 ^ 400 := by
    intro a
    rw [(hx a).1, (hy a).1]
    exact difference_near _ _ (hx a).2.1 (hy a).2.1 (hx a).2.2 (hy a).2.2
  choose e e1 e2 e3 e4 using hd
  have hL : (4 : K) * 2 ^ 400 ≤ large K := by
    unfold large
    calc (4 : K) * 2 ^ 400 = 2 ^ 402 := by rw [show (4 : K) = 2 ^ 2 by norm_num, ← pow_add]
      _ ≤ 2 ^ 500 := pow_le_pow_right₀ one_le_two (by norm_num)
  have hnn : (0 : K) ≤ e 0 * e 0 + e 1 * e 1 + e 2 * e 2 := add_nonneg (add_nonneg (mul_self_nonneg _) (mul_self_nonneg _)) (mul_self_nonneg _)
  obtain ⟨q, hq0, hq⟩ := RoundedArith.root (e 0 * e 0 + e 1 * e 1 + e 2 * e 2) hnn
  obtain ⟨T, t1, t2, t3, t4⟩ := length3_accurate (e 0) (e 1) (e 2) q ((e4 0).trans hL) ((e4 1).trans hL) ((e4 2).trans hL) hq0 hq
  have a0 := sq_near hr.le (hr1.trans (by norm_num)) (e2 0)
  have a1 := sq_near hr.le (hr1.trans (by norm_num)) (e2 1)
  have a2 := sq_near hr.le (hr1.trans (by norm_num)) (e2 2)
  have up : q ≤ (1 + roundoff K) * s := by
    refine nonneg_le_nonneg_of_sq_le_sq (by positivity) ?_
    have : (1 + roundoff K) * s * ((1 + roundoff K) * s) = (1 + roundoff K) ^ 2 * (s * s) := by ring
    rw [hq, this, hss]
    linarith [a0.2, a1.2, a2.2]
  have lo : (1 - roundoff K) * s ≤ q := by
    refine nonneg_le_nonneg_of_sq_le_sq hq0 ?_
    have : (1 - roundoff K) * s * ((1 - roundoff K) * s) = (1 - roundoff K) ^ 2 * (s * s) := by ring
    rw [hq, this, hss]
    linarith [a0.1, a1.1, a2.1]
  refine ⟨T, ?_, t2, t3, ?_, ?_⟩
  · unfold F.sq
    rw [e1 0, e1 1, e1 2]
    exact t1
  · have h51 : roundoff K = (1 : K) / 2 ^ 51 / 4 := by unfold roundoff; norm_num
    have h50 : (s : K) / 2 ^ 50 = 2 * (s / 2 ^ 51) := by norm_num; ring
    have q1 : |q - s| ≤ roundoff K * s := by
      rw [abs_le]; constructor <;> linarith
    have q2 : roundoff K * s = s / 2 ^ 51 / 4 := by rw [h51]; ring
    have q3 : q / 2 ^ 51 ≤ (3 / 2) * (s / 2 ^ 51) := by
      have : q ≤ 3 / 2 * s := up.trans (mul_le_mul_of_nonneg_right (by linarith) hs)
      calc q / 2 ^ 51 ≤ (3 / 2 * s) / 2 ^ 51 := div_le_div_of_nonneg_right this (by positivity)
        _ = _ := by ring
    have q4 := abs_add_le (T - q) (q - s)
    rw [show T - q + (q - s) = T - s by ring] at q4
    have q5 : 0 ≤ s / 2 ^ 51 := by positivity
    rw [h50]
    linarith
  · refine nonneg_le_nonneg_of_sq_le_sq (by positivity) ?_
    have b : ∀ a, (u a - w a) * (u a - w a) ≤ (2 * 2 ^ 400) * (2 * 2 ^ 400) := fun a => by
      rw [← abs_mul_abs_self]
      exact mul_self_le_mul_self (abs_nonneg _) (e3 a)
    have b0 := b 0
    have b1 := b 1
    have b2 := b 2
    rw [hss]
    generalize (2 : K) ^ 400 = B at b0 b1 b2 ⊢
    nlinarith [mul_self_nonneg B]


/-- A square near `A²`, if the number is near `A`. -/
theorem square_err {A X ε κ : K} (hA : 0 ≤ A) (hε : 0 < ε) (hε1 : ε ≤ 1 / 2) (hκ : 0 ≤ κ) (h : |X - A| ≤ ε * A + κ) :
    |X * X - A * A| ≤ 4 * ε * (A * A) + 2 * (κ * κ / ε) := by
  have e : X * X - A * A = (X - A) * (2 * A + (X - A)) := by ring
  have h0 := abs_nonneg (X - A)
  have h1 : |2 * A + (X - A)| ≤ 2 * A + (ε * A + κ) := by
    refine (abs_add_le _ _).trans ?_
    rw [abs_of_nonneg (by linarith)]
    linarith
  have hB : 0 ≤ ε * A + κ := h0.trans h
  have h2 : |X * X - A * A| ≤ (ε * A + κ) * (2 * A + (ε * A + κ)) := by
    rw [e, abs_mul]
    exact mul_le_mul h h1 (abs_nonneg _) hB
  refine h2.trans ?_
  have hAA := mul_self_nonneg A
  have hdiv : κ * κ ≤ (κ * κ / ε) / 2 := by
    rw [div_div, le_div_iff₀ (by positivity)]
    nlinarith [mul_self_nonneg κ]
  have ham : 2 * (A * κ) ≤ ε * (A * A) + κ * κ / ε := by
    have : 0 ≤ (ε * A - κ) ^ 2 / ε := by positivity
    have e3 : (ε * A - κ) ^ 2 / ε = ε * (A * A) - 2 * (A * κ) + κ * κ / ε := by
      field_simp; ring
    linarith
  have hdn : 0 ≤ κ * κ / ε := div_nonneg (mul_self_nonneg _) hε.le
  have e4 : (ε * A + κ) * (2 * A + (ε * A + κ)) = 2 * ε * (A * A) + 2 * (A * κ) + ε * (ε * (A * A)) + ε * (2 * (A * κ)) + κ * κ := by ring
  have k1 : ε * (ε * (A * A)) ≤ 1 / 2 * (ε * (A * A)) := mul_le_mul_of_nonneg_right hε1 (by positivity)
  have k2 : ε * (2 * (A * κ)) ≤ 1 / 2 * (2 * (A * κ)) := mul_le_mul_of_nonneg_right hε1 (by positivity)
  rw [e4]
  linarith

/-- The sum of some rounded distances. -/
theorem total_near [LawfulArith K] [RoundedArith K] {α : Type} (l : List α) (w s : α → K) (hlen : l.length ≤ 2 ^ 50)
    (hd : ∀ x ∈ l, IsDouble (w x)) (h0 : ∀ x ∈ l, 0 ≤ s x) (he : ∀ x ∈ l, |w x - s x| ≤ s x / 2 ^ 50 + speck K) (hb : ∀ x ∈ l, s x ≤ 4 * 2 ^ 400) :
    ∃ X, F.sum (l.map fun x => fin (w x)) = fin X ∧ IsDouble X ∧
      |X - (l.map s).sum| ≤ (l.length + 5) / 2 ^ 52 * (l.map s).sum + 2 * (l.length * speck K) ∧ (l.map s).sum ≤ 2 ^ 50 * (4 * 2 ^ 400) := by
  have hsp := speck_pos (K := K)
  have habs : l.map (fun x => |s x|) = l.map s := List.map_congr_left fun x hx => abs_of_nonneg (h0 x hx)
  have hn : (l.length : K) ≤ 2 ^ 50 := by exact_mod_cast hlen
  have hA0 : 0 ≤ (l.map s).sum := List.sum_nonneg fun y hy => by
    obtain ⟨x, hx, rfl⟩ := List.mem_map.1 hy
    exact h0 x hx
  have hAb : (l.map s).sum ≤ 2 ^ 50 * (4 * 2 ^ 400) := by
    have := sum_le_const l s (4 * 2 ^ 400) (fun x hx => by rw [abs_of_nonneg (h0 x hx)]; exact hb x hx)
    rw [habs] at this
    exact this.trans (mul_le_mul_of_nonneg_right hn (by positivity))
  have he' : ∀ x ∈ l, |w x - s x| ≤ 1 / 2 ^ 50 * |s x| + speck K := fun x hx => by
    rw [abs_of_nonneg (h0 x hx), one_div_mul_eq_div]
    exact he x hx
  have hW := abs_sum_bound l w s (1 / 2 ^ 50) (speck K) he'
  have hD := sum_diff l w s (1 / 2 ^ 50) (speck K) he'
  rw [habs] at hW hD
  have hns : (l.length : K) * speck K ≤ 2 ^ 50 := (mul_le_mul hn speck_le_one hsp.le (by positivity)).trans (by norm_num)
  have hfit : (l.map fun x => |w x|).sum ≤ huge K / 2 := by
    refine hW.trans ?_
    have h1 : (1 + 1 / 2 ^ 50 : K) * (l.map s).sum ≤ 2 * (2 ^ 50 * (4 * 2 ^ 400)) :=
      mul_le_mul (by norm_num) hAb hA0 (by norm_num)
    have h2 : (2 : K) ^ 50 ≤ 2 ^ 50 * (4 * 2 ^ 400) := le_mul_of_one_le_right (by positivity) (by
      have h4 : (1 : K) ≤ 2 ^ 400 := one_le_pow₀ one_le_two
      generalize (2 : K) ^ 400 = B at h4 ⊢
      linarith)
    have h3 : (3 : K) * (2 ^ 50 * (4 * 2 ^ 400)) ≤ huge K / 2 := by
      have e : huge K / 2 = 2 ^ 50 * (4 * 2 ^ 400) * 2 ^ 570 := by
        unfold huge
        rw [show (4 : K) = 2 ^ 2 by norm_num, ← pow_add, ← pow_add, ← pow_add, show (1023 : ℕ) = 1022 + 1 from rfl, pow_succ, mul_div_assoc]
        norm_num
      rw [e, mul_comm]
      refine mul_le_mul_of_nonneg_left ?_ (by positivity)
      calc (3 : K) ≤ 2 ^ 2 := by norm_num
        _ ≤ 2 ^ 570 := pow_le_pow_right₀ one_le_two (by norm_num)
    have h4 := hns.trans h2
    generalize (2 : K) ^ 50 * (4 * 2 ^ 400) = B at h1 h3 h4
    linarith
  have ew : (l.map w).map (fun v => |v|) = l.map fun x => |w x| := by rw [List.map_map]; rfl
  obtain ⟨X, x1, x2, x3⟩ := sum_accurate (l.map w) (fun v hv => by obtain ⟨x, hx, rfl⟩ := List.mem_map.1 hv; exact hd x hx)
    (by rw [List.length_map]; omega) (by rw [ew]; exact hfit)
  rw [ew, List.length_map] at x3
  refine ⟨X, by rw [← x1, List.map_map]; rfl, x2, ?_, hAb⟩
  have hg := growth (K := K) l.length (by omega)
  have hs0 : 0 ≤ (l.map fun x => |w x|).sum := List.sum_nonneg fun y hy => by
    obtain ⟨x, _, rfl⟩ := List.mem_map.1 hy
    exact abs_nonneg _
  have x4 : |X - (l.map w).sum| ≤ l.length / 2 ^ 52 * ((1 + 1 / 2 ^ 50) * (l.map s).sum + l.length * speck K) := by
    refine x3.trans (mul_le_mul (by linarith) hW hs0 (by positivity))
  have q4 := abs_add_le (X - (l.map w).sum) ((l.map w).sum - (l.map s).sum)
  rw [show X - (l.map w).sum + ((l.map w).sum - (l.map s).sum) = X - (l.map s).sum by ring] at q4
  generalize (l.map s).sum = A at *
  have hm : (l.length : K) / 2 ^ 52 ≤ 1 / 4 := by
    have e52 : (2 : K) ^ 52 = 4 * 2 ^ 50 := by norm_num
    rw [div_le_iff₀ (by positivity), e52]
    linarith
  have hmn : 0 ≤ (l.length : K) / 2 ^ 52 := by positivity
  have e1 : ((l.length : K) + 5) / 2 ^ 52 * A = l.length / 2 ^ 52 * A + 5 / 2 ^ 52 * A := by ring
  have e2 : (l.length : K) / 2 ^ 52 * ((1 + 1 / 2 ^ 50) * A + l.length * speck K) =
      l.length / 2 ^ 52 * A + l.length / 2 ^ 52 * (A / 2 ^ 50) + l.length / 2 ^ 52 * (l.length * speck K) := by ring
  have hAn : 0 ≤ A / 2 ^ 50 := by positivity
  have k1 := mul_le_mul_of_nonneg_right hm hAn
  have hks : 0 ≤ (l.length : K) * speck K := by positivity
  have k2 := mul_le_mul_of_nonneg_right hm hks
  have e3 : (5 : K) / 2 ^ 52 * A = 5 / 4 * (A / 2 ^ 50) := by norm_num; ring
  have e4 : (1 : K) / 2 ^ 50 * A = A / 2 ^ 50 := by ring
  rw [e2] at x4
  rw [e4] at hD
  rw [e1, e3]
  linarith

/-- The value of a cell of `msd_field`, near `A² / n`. -/
theorem cell_near [LawfulArith K] [RoundedArith K] (n : ℕ) (hn : 1 ≤ n) (hlen : n ≤ 2 ^ 50) (A X : K) (hA : 0 ≤ A) (hAb : A ≤ 2 ^ 50 * (4 * 2 ^ 400))
    (h : |X - A| ≤ (n + 5) / 2 ^ 52 * A + 2 * (n * speck K)) :
    ∃ y, (fin X * fin X / fin (n : K) : F K) = fin y ∧ |y - A * A / n| ≤ (n + 7) / 2 ^ 50 * (A * A / n) + 1 / 2 ^ 1000 := by
  have hr := roundoff_pos (K := K)
  have hr1 := roundoff_le (K := K)
  have ht := tiny_pos (K := K)
  have hsp := speck_pos (K := K)
  have hn1 : (1 : K) ≤ n := by exact_mod_cast hn
  have hn0 : (0 : K) < n := by linarith
  have hn50 : (n : K) ≤ 2 ^ 50 := by exact_mod_cast hlen
  set ε : K := (n + 5) / 2 ^ 52 with hε
  have hε0 : 0 < ε := by positivity
  have hε1 : ε ≤ 1 / 2 := by
    have e52 : (2 : K) ^ 52 = 4 * 2 ^ 50 := by norm_num
    have e50 : (5 : K) ≤ 2 ^ 50 := by norm_num
    rw [hε, div_le_iff₀ (by positivity), e52]
    linarith
  have hss : speck K * speck K = 32 * tiny K := by have := half_speck (K := K); linarith
  have hsq := square_err hA hε0 hε1 (by positivity) h
  have hκ : 2 * (2 * (n * speck K) * (2 * (n * speck K)) / ε) ≤ n * (2 ^ 60 * tiny K) := by
    have e : 2 * (2 * (n * speck K) * (2 * (n * speck K)) / ε) = (n * (2 ^ 60 * tiny K)) * (n / (n + 5)) := by
      have : 2 * (n * speck K) * (2 * (n * speck K)) = 4 * (n * n) * (32 * tiny K) := by rw [← hss]; ring
      rw [this, hε]
      have h5 : (n : K) + 5 ≠ 0 := by positivity
      field_simp
      norm_num
    rw [e]
    refine mul_le_of_le_one_right (by positivity) ?_
    rw [div_le_one (by positivity)]
    linarith
  have hAA0 : 0 ≤ A * A := mul_self_nonneg A
  have hX := hsq.trans (add_le_add_right hκ _)
  have hXX : X * X ≤ 3 * (A * A) + n * (2 ^ 60 * tiny K) := by
    have := (abs_le.1 hX).2
    have k := mul_le_mul_of_nonneg_right hε1 hAA0
    linarith
  have hAAb : A * A ≤ (2 ^ 50 * (4 * 2 ^ 400)) * (2 ^ 50 * (4 * 2 ^ 400)) := mul_self_le_mul_self hA hAb
  have hbig : X * X ≤ huge K / 4 := by
    have k1 : (n : K) * (2 ^ 60 * tiny K) ≤ 2 ^ 50 * (2 ^ 60 * 1) :=
      mul_le_mul hn50 (mul_le_mul_of_nonneg_left tiny_le_one (by positivity)) (by positivity) (by positivity)
    have e1 : (2 ^ 50 * (4 * 2 ^ 400)) * (2 ^ 50 * (4 * 2 ^ 400)) = (2 : K) ^ 904 := by
      rw [show (4 : K) = 2 ^ 2 by norm_num]; simp only [← pow_add]
    have e2 : (2 : K) ^ 50 * (2 ^ 60 * 1) = 2 ^ 110 := by rw [mul_one, ← pow_add]
    have e3 : huge K / 4 = 2 ^ 1021 := by
      unfold huge
      rw [show (4 : K) = 2 ^ 2 by norm_num, show (1023 : ℕ) = 1021 + 2 from rfl, pow_add]
      field_simp
    rw [e1] at hAAb
    rw [e2] at k1
    rw [e3]
    have k2 : (2 : K) ^ 110 ≤ 2 ^ 904 := pow_le_pow_right₀ one_le_two (by norm_num)
    have k3 : (4 : K) * 2 ^ 904 ≤ 2 ^ 1021 := by
      rw [show (4 : K) = 2 ^ 2 by norm_num, ← pow_add]
      exact pow_le_pow_right₀ one_le_two (by norm_num)
    have k4 := k1.trans k2
    generalize (2 : K) ^ 904 = B at hAAb k3 k4
    generalize (2 : K) ^ 1021 = B' at k3 ⊢
    linarith only [hXX, hAAb, k3, k4]
  have hX0 : 0 ≤ X * X := mul_self_nonneg X
  have hh := huge_pos (K := K)
  have hh1 : (1 : K) ≤ huge K := by unfold huge; exact one_le_pow₀ one_le_two
  obtain ⟨Y, hY⟩ := RoundedArith.rnd_finite (X * X) (by rw [abs_of_nonneg hX0]; linarith)
  have y1 := RoundedArith.rnd_err _ _ hY
  rw [abs_of_nonneg hX0] at y1
  have y2 := abs_le.1 y1
  have y3 := mul_le_mul_of_nonneg_right hr1 hX0
  have y4 : tiny K ≤ huge K / 4 := by
    have h4 : (4 : K) ≤ huge K := by
      unfold huge
      calc (4 : K) = 2 ^ 2 := by norm_num
        _ ≤ _ := pow_le_pow_right₀ one_le_two (by norm_num)
    have := tiny_le_one (K := K)
    linarith
  have hYa : |Y| ≤ 2 * (X * X) + tiny K := by rw [abs_le]; constructor <;> linarith
  have hYn : |Y / n| ≤ (2 * (X * X) + tiny K) / n := by
    rw [abs_div, abs_of_pos hn0]
    exact div_le_div_of_nonneg_right hYa hn0.le
  have hdle : ∀ z : K, 0 ≤ z → z / n ≤ z := fun z hz => div_le_self hz hn1
  obtain ⟨Z, hZ⟩ := RoundedArith.rnd_finite (Y / n) (hYn.trans ((hdle _ (by positivity)).trans (by linarith)))
  have z1 := RoundedArith.rnd_err _ _ hZ
  refine ⟨Z, ?_, ?_⟩
  · rw [F.mul_fin, hY, F.div_fin_ne _ hn0.ne', hZ]
  · have t1 := abs_add_le (Z - Y / n) (Y / n - A * A / n)
    rw [show Z - Y / n + (Y / n - A * A / n) = Z - A * A / n by ring] at t1
    have t2 : |Y / n - A * A / n| ≤ (roundoff K * (X * X) + tiny K + (4 * ε * (A * A) + n * (2 ^ 60 * tiny K))) / n := by
      rw [← sub_div, abs_div, abs_of_pos hn0]
      refine div_le_div_of_nonneg_right ?_ hn0.le
      have := abs_add_le (Y - X * X) (X * X - A * A)
      rw [show Y - X * X + (X * X - A * A) = Y - A * A by ring] at this
      linarith
    have t3 : roundoff K * |Y / n| ≤ roundoff K * ((2 * (X * X) + tiny K) / n) := mul_le_mul_of_nonneg_left hYn hr.le
    set Q : K := A * A / n with hQ
    have hQ0 : 0 ≤ Q := by positivity
    have hXn : X * X / n ≤ 3 * Q + 2 ^ 60 * tiny K := by
      have := div_le_div_of_nonneg_right hXX hn0.le
      rw [add_div, mul_div_assoc 3, mul_div_cancel_left₀ _ hn0.ne'] at this
      exact this
    have e1 : (roundoff K * (X * X) + tiny K + (4 * ε * (A * A) + n * (2 ^ 60 * tiny K))) / n =
        roundoff K * (X * X / n) + tiny K / n + 4 * ε * Q + 2 ^ 60 * tiny K := by
      have hc' : (n : K) * (2 ^ 60 * tiny K) / n = 2 ^ 60 * tiny K := mul_div_cancel_left₀ _ hn0.ne'
      rw [add_div, add_div, add_div, hc', hQ]
      ring
    have e2 : roundoff K * ((2 * (X * X) + tiny K) / n) = 2 * (roundoff K * (X * X / n)) + roundoff K * (tiny K / n) := by ring
    have hXr := mul_le_mul_of_nonneg_left hXn hr.le
    have htn := hdle _ ht.le
    have htn0 : 0 ≤ tiny K / n := by positivity
    have hrt : roundoff K * (tiny K / n) ≤ tiny K := by
      have := mul_le_mul_of_nonneg_right hr1 htn0
      linarith
    have hrt2 : roundoff K * (2 ^ 60 * tiny K) ≤ 1 / 16 * (2 ^ 60 * tiny K) := mul_le_mul_of_nonneg_right hr1 (by positivity)
    have htiny : (2 ^ 60 + 2 ^ 59 + 3) * tiny K ≤ 1 / 2 ^ 1000 := by
      have e : (1 : K) / 2 ^ 1000 = 2 ^ 75 * tiny K := by
        unfold tiny
        rw [show (1075 : ℕ) = 1000 + 75 from rfl, pow_add]
        field_simp
      rw [e]
      exact mul_le_mul_of_nonneg_right (by norm_num) ht.le
    have e5 : ((n : K) + 7) / 2 ^ 50 * Q = 4 * ε * Q + 8 / 2 ^ 52 * Q := by rw [hε]; norm_num; ring
    have e6 : roundoff K * (3 * Q + 2 ^ 60 * tiny K) = 3 / 2 * (1 / 2 ^ 52 * Q) + roundoff K * (2 ^ 60 * tiny K) := by
      unfold roundoff; norm_num; ring
    have e7 : (8 : K) / 2 ^ 52 * Q = 8 * (1 / 2 ^ 52 * Q) := by ring
    have hq2 : 0 ≤ 1 / 2 ^ 52 * Q := by positivity
    rw [e1] at t2
    rw [e2] at t3
    rw [e6] at hXr
    rw [e5, e7]
    linarith

/-! ### C152 -/

/-- **C152 (partial).** The full property: every cell is near the mean squared displacement of the samples starting in it. Proved, with rounding (at most `2^50` leads,
stored coordinates up to `2^400`, a grid without contents): with `D x ≥ 0` the true distance of lead `x`, a cell with samples `S` is finite and differs from `(Σ D)² / |S|` by a
relative error of at most `(|S| + 7) / 2^50` and `2^-1000`; for a single sample that is the squared displacement, up to `2^-47`. Missing: cells with several samples, where
already the exact value is not the mean squared displacement (`C44_false`). -/
theorem C152_msd_partial [LawfulArith K] [RoundedArith K] (p : Profile) (d : Dm (Timestep K)) (hd : d.CanLook) (st : Stats K) (τ : ℕ → K)
    (hc : Clocked st d.file d.n τ) (grid : Grid K) (hg : grid.Fillable p) (hfresh : ∀ c, grid.st.weight.get c = 0)
    (sel : Selector K) (hs : sel.Usable) (hw : ∀ t, t < d.n → (d.file t).Wf) (np : ℕ) (hnp : ∀ t, t < d.n → (d.file t).position.length = np) (δ : K)
    (hlen : (d.leads p sel st (fin δ) (List.range (d.n - 1))).length ≤ 2 ^ 50)
    (u w : ℕ × ℕ × ℕ → Fin 3 → K)
    (hpos : ∀ x ∈ d.leads p sel st (fin δ) (List.range (d.n - 1)), StoredPos (startOf d.file x) (u x) ∧ StoredPos (endOf d.file x) (w x))
    (D : ℕ × ℕ × ℕ → K) (hD : ∀ x ∈ d.leads p sel st (fin δ) (List.range (d.n - 1)),
      0 ≤ D x ∧ D x ^ 2 = (u x 0 - w x 0) ^ 2 + (u x 1 - w x 1) ^ 2 + (u x 2 - w x 2) ^ 2) :
    ∃ (d' : Dm (Timestep K)) (g' : Grid K), msdField p d st grid sel (fin δ) = .ok (d', g') ∧ ∀ c, InB grid.geom.cells c →
      let S := (d.leads p sel st (fin δ) (List.range (d.n - 1))).filter fun x => inCell p grid.geom (startOf d.file x) c
      g'.st.weight.get c = fin (S.length : K) ∧
      (S = [] → g'.st.data.get c = 0) ∧
      (S ≠ [] → ∃ y, g'.st.data.get c = fin y ∧ |y - (S.map D).sum ^ 2 / S.length| ≤ (S.length + 7) / 2 ^ 50 * ((S.map D).sum ^ 2 / S.length) + 1 / 2 ^ 1000) ∧
      (∀ x, S = [x] → ∃ y, g'.st.data.get c = fin y ∧
        let q := (u x 0 - w x 0) ^ 2 + (u x 1 - w x 1) ^ 2 + (u x 2 - w x 2) ^ 2
        |y - q| ≤ q / 2 ^ 47 + 1 / 2 ^ 1000) := by
  classical
  obtain ⟨d', g', h1, h2, h3, h4, h5, _, h6⟩ := msd_run p d hd st τ hc grid hg sel hs hw np hnp δ
  refine ⟨d', g', h1, fun c hcb => ?_⟩
  obtain ⟨k1, k2⟩ := h6 c hcb
  intro S
  have hSl : ∀ x ∈ S, x ∈ d.leads p sel st (fin δ) (List.range (d.n - 1)) := fun x hx => (List.mem_filter.1 hx).1
  have hSlen : S.length ≤ 2 ^ 50 := (List.length_filter_le _ _).trans hlen
  have hval : ∀ x ∈ S, ∃ T, leadDist d.file x = fin T ∧ IsDouble T ∧ 0 ≤ T ∧ |T - D x| ≤ D x / 2 ^ 50 + speck K ∧ D x ≤ 4 * 2 ^ 400 := by
    intro x hx
    obtain ⟨hp1, hp2⟩ := hpos x (hSl x hx)
    obtain ⟨hD1, hD2⟩ := hD x (hSl x hx)
    exact distance_near _ _ (u x) (w x) hp1 hp2 (D x) hD1 (by rw [← pow_two, hD2]; ring)
  choose! T hT using hval
  rw [hfresh c] at k1 k2
  rw [ones_zero S.length (by omega)] at k1 k2
  have hmap : S.map (leadDist d.file) = S.map fun x => fin (T x) := List.map_congr_left fun x hx => (hT x hx).1
  change g'.st.data.get c = (if fin (S.length : K) > 0 then F.sum (S.map (leadDist d.file)) * F.sum (S.map (leadDist d.file)) / fin (S.length : K) else 0) at k2
  have hmain : S ≠ [] → ∃ y, g'.st.data.get c = fin y ∧
      |y - (S.map D).sum ^ 2 / S.length| ≤ (S.length + 7) / 2 ^ 50 * ((S.map D).sum ^ 2 / S.length) + 1 / 2 ^ 1000 := by
    intro hne
    have hl := List.length_pos_iff.2 hne
    have hp : (0 : K) < S.length := by exact_mod_cast hl
    obtain ⟨X, x1, _, x3, x4⟩ := total_near S T D hSlen (fun x hx => (hT x hx).2.1) (fun x hx => (hD x (hSl x hx)).1)
      (fun x hx => (hT x hx).2.2.2.1) (fun x hx => (hT x hx).2.2.2.2)
    have hA0 : 0 ≤ (S.map D).sum := List.sum_nonneg fun y hy => by
      obtain ⟨x, hx, rfl⟩ := List.mem_map.1 hy
      exact (hD x (hSl x hx)).1
    obtain ⟨y, y1, y2⟩ := cell_near S.length hl hSlen _ X hA0 x4 x3
    refine ⟨y, ?_, by rw [pow_two]; exact y2⟩
    rw [k2, if_pos (by rw [F.zero_def]; change fin 0 < fin _; rw [F.lt_fin]; exact hp), hmap, x1]
    exact y1
  refine ⟨k1, fun hnil => ?_, hmain, fun x hx => ?_⟩
  · rw [k2, if_neg (by rw [F.zero_def]; change ¬ fin 0 < fin _; rw [F.lt_fin, hnil]; simp)]
  · obtain ⟨y, y1, y2⟩ := hmain (by rw [hx]; simp)
    refine ⟨y, y1, ?_⟩
    intro q
    have hq : D x ^ 2 = q := (hD x (hSl x (by rw [hx]; simp))).2
    rw [hx] at y2
    simp only [List.map_cons, List.map_nil, List.sum_cons, List.sum_nil, add_zero, List.length_singleton, Nat.cast_one, div_one] at y2
    rw [hq] at y2
    refine y2.trans (le_of_eq ?_)
    congr 1
    norm_num
    ring

/-- Case for `C152_msd_partial` in binary64: three particles that start at the origin and are one second later at `(0.22, 0, 0)`, in a grid of one cell. -/
example (p : Profile) : ∃ d : Dm (Timestep B64), Dm.new p .tdata together 2 Timestep.default = .ok d ∧
    ∃ d' g', msdField p d togetherStats unitGrid Selector.default (fin 1) = .ok (d', g') ∧
      ∀ c, InB (unitGrid (K := B64)).geom.cells c →
        let S := (d.leads p Selector.default togetherStats (fin 1) (List.range (d.n - 1))).filter fun x => inCell p (unitGrid (K := B64)).geom (startOf d.file x) c
        S ≠ [] → ∃ y, g'.st.data.get c = fin y ∧
          |y - (S.map fun _ => B64.v22).sum ^ 2 / S.length| ≤ (S.length + 7) / 2 ^ 50 * ((S.map fun _ => B64.v22).sum ^ 2 / S.length) + 1 / 2 ^ 1000 := by
  obtain ⟨d, e, hd, hf, hn⟩ := Dm.canLook_new p .tdata together 2 Timestep.default (by norm_num) (by norm_num) (Or.inl rfl)
  have hsub : (d.leads p Selector.default togetherStats (fin 1) (List.range (d.n - 1))).Sublist [(0, 0, 1), (0, 1, 1), (0, 2, 1)] := by
    rw [← together_leads p]
    unfold Dm.leads
    rw [hf, hn, show 2 - 1 = 1 from rfl, List.range_succ (n := 1)]
    unfold leads
    rw [List.flatMap_append]
    exact List.sublist_append_left _ _
  have hpos : ∀ x ∈ d.leads p Selector.default togetherStats (fin 1) (List.range (d.n - 1)),
      (startOf d.file x = fun _ => fin 0) ∧ endOf d.file x = ![fin B64.v22, fin 0, fin 0] := by
    intro x hx
    have hx' := hsub.subset hx
    rw [hf]
    simp only [List.mem_cons, List.not_mem_nil, or_false] at hx'
    rcases hx' with rfl | rfl | rfl <;> exact ⟨rfl, rfl⟩
  have hv0 : (0 : B64) ≤ B64.v22 := by unfold B64.v22; norm_num
  have hv1 : B64.v22 ≤ (1 : B64) := by unfold B64.v22; norm_num
  have h400 : (1 : B64) ≤ 2 ^ 400 := one_le_pow₀ one_le_two
  have hz : IsDouble (0 : B64) := F.rnd_zero
  obtain ⟨d', g', h1, h2⟩ := C152_msd_partial p d hd togetherStats _ (by rw [hf, hn]; exact together_clocked) unitGrid
    (fillable_cart p _ unit_isCart) (fun _ => rfl) Selector.default usable_default
    (fun t _ => by rw [hf]; by_cases h : t = 0 <;> exact ⟨by simp [together, h], by simp [together, h], by simp [together, h], by simp [together, h], by simp [together, h], by simp [together, h]⟩)
    3 (fun t _ => by rw [hf]; by_cases h : t = 0 <;> simp [together, h]) 1 (by have := hsub.length_le; norm_num at this ⊢; omega)
    (fun _ _ => 0) (fun _ => ![B64.v22, 0, 0])
    (fun x hx => by
      obtain ⟨k1, k2⟩ := hpos x hx
      rw [k1, k2]
      refine ⟨fun a => ⟨rfl, hz, by rw [abs_zero]; positivity⟩, fun a => ?_⟩
      fin_cases a
      · exact ⟨rfl, B64.v22_double, by change |B64.v22| ≤ _; rw [abs_of_nonneg hv0]; exact hv1.trans h400⟩
      · exact ⟨rfl, hz, by change |(0 : B64)| ≤ _; rw [abs_zero]; positivity⟩
      · exact ⟨rfl, hz, by change |(0 : B64)| ≤ _; rw [abs_zero]; positivity⟩)
    (fun _ => B64.v22) (fun x _ => ⟨hv0, by simp⟩)
  refine ⟨d, e, d', g', h1, fun c hc => ?_⟩
  intro S hS
  obtain ⟨_, _, k, _⟩ := h2 c hc
  exact k hS

end Up4
