import Verif.Proofs.Accuracy
import Verif.Proofs.Collapse

set_option linter.unusedSectionVars false

/-! Rounding errors of weighted means along a column of cells. -/

namespace Up4
open F

variable {K : Type} [Field K] [LinearOrder K] [IsStrictOrderedRing K] [FloorRing K] [Arith K]

/-- A rounded sum divided by a number of at least one. -/
theorem quotient_accurate [LawfulArith K] [RoundedArith K] (l : List K) (hl : ∀ v ∈ l, IsDouble v) (hlen : l.length < 2 ^ 52)
    (hsum : (l.map fun v => |v|).sum ≤ huge K / 2) (N : K) (hN : 1 ≤ N) :
    ∃ y, F.sum (l.map fin) / fin N = fin y ∧
      |y - l.sum / N| ≤ (l.length + 1) / 2 ^ 52 * ((l.map fun v => |v|).sum / N) + tiny K := by
  have hu := roundoff_pos (K := K)
  have hS : 0 ≤ (l.map fun v => |v|).sum := List.sum_nonneg (by simp)
  have hn0 : (0 : K) < N := by linarith
  obtain ⟨s, hs, hd, he⟩ := sum_accurate l hl hlen.le hsum
  have hg := growth (K := K) (l.length + 1) hlen
  have hg0 := growth (K := K) l.length hlen.le
  have hnk : (l.length : K) ≤ 2 ^ 52 := by exact_mod_cast hlen.le
  have hP2 : (1 + roundoff K) ^ l.length ≤ 2 := by
    refine hg0.trans ?_
    have : (l.length : K) / 2 ^ 52 ≤ 1 := by rw [div_le_one (by norm_num)]; exact hnk
    linarith
  have hsA : |s| ≤ (1 + roundoff K) ^ l.length * (l.map fun v => |v|).sum := by
    have h1 : |s| ≤ |s - l.sum| + |l.sum| := by
      have := abs_add_le (s - l.sum) l.sum; rwa [sub_add_cancel] at this
    have h2 : |l.sum| ≤ (l.map fun v => |v|).sum := abs_sum_le l
    nlinarith
  have hfin : |s / N| ≤ huge K := by
    rw [abs_div, abs_of_pos hn0, div_le_iff₀ hn0]
    calc |s| ≤ 2 * (huge K / 2) := hsA.trans (mul_le_mul hP2 hsum hS (by norm_num))
      _ = huge K * 1 := by ring
      _ ≤ huge K * N := mul_le_mul_of_nonneg_left hN huge_pos.le
  obtain ⟨y, hy⟩ := RoundedArith.rnd_finite _ hfin
  refine ⟨y, ?_, ?_⟩
  · rw [hs, div_fin_ne _ hn0.ne', hy]
  · have h1 := RoundedArith.rnd_err _ y hy
    have h2 : |y - l.sum / N| ≤ |y - s / N| + |s - l.sum| / N := by
      have := abs_add_le (y - s / N) ((s - l.sum) / N)
      rw [abs_div (s - l.sum), abs_of_pos hn0] at this
      rwa [show y - s / N + (s - l.sum) / N = y - l.sum / N by ring] at this
    rw [abs_div s, abs_of_pos hn0] at h1
    have key : roundoff K * |s| + |s - l.sum| ≤ (l.length + 1) / 2 ^ 52 * (l.map fun v => |v|).sum := by
      rw [pow_succ] at hg
      push_cast at hg
      have h5 : roundoff K * |s| ≤ roundoff K * ((1 + roundoff K) ^ l.length * (l.map fun v => |v|).sum) := mul_le_mul_of_nonneg_left hsA hu.le
      have h6 := mul_le_mul_of_nonneg_right hg hS
      generalize (1 + roundoff K) ^ l.length = P at *
      generalize ((l.length : K) + 1) / 2 ^ 52 = G at *
      nlinarith
    have h7 : (roundoff K * |s| + |s - l.sum|) / N ≤ ((l.length + 1) / 2 ^ 52 * (l.map fun v => |v|).sum) / N :=
      div_le_div_of_nonneg_right key hn0.le
    rw [add_div, mul_div_assoc, mul_div_assoc] at h7
    linarith

theorem sums_near {α : Type} (l : List α) (f g h : α → K) (hf : ∀ x ∈ l, |f x - g x| ≤ h x) :
    |(l.map f).sum - (l.map g).sum| ≤ (l.map h).sum := by
  induction l with
  | nil => simp
  | cons a l ih =>
    have h1 := ih fun x hx => hf x (by simp [hx])
    have h2 := hf a (by simp)
    simp only [List.map_cons, List.sum_cons]
    have := abs_add_le (f a - g a) ((l.map f).sum - (l.map g).sum)
    rw [show f a - g a + ((l.map f).sum - (l.map g).sum) = f a + (l.map f).sum - (g a + (l.map g).sum) by ring] at this
    linarith

theorem sums_le {α : Type} (l : List α) (f g : α → K) (hf : ∀ x ∈ l, f x ≤ g x) : (l.map f).sum ≤ (l.map g).sum := by
  induction l with
  | nil => simp
  | cons a l ih =>
    have h1 := ih fun x hx => hf x (by simp [hx])
    have h2 := hf a (by simp)
    simp only [List.map_cons, List.sum_cons]
    linarith

theorem range_sum (m : ℕ) (f : ℕ → K) : ((List.range m).map f).sum = ∑ k ∈ Finset.range m, f k := by
  induction m with
  | zero => simp
  | succ m ih => rw [List.range_succ, List.map_append, List.sum_append, ih, Finset.sum_range_succ]; simp

/-- `collapse` adds up the products and the weights. -/
theorem collapseFold_sums (cyl : Bool) (d : ℕ → F K) (w : ℕ → K) (m : ℕ) : Store.collapseFold cyl d (fun k => fin (w k)) m =
    (F.sum ((List.range m).map fun k => Store.nz (d k) * fin (w k)), F.sum ((List.range m).map fun k => fin (w k))) := by
  induction m with
  | zero => rfl
  | succ m ih =>
    unfold Store.collapseFold at ih ⊢
    rw [List.range_succ, List.foldl_append, ih]
    have : (if cyl = true then Store.nz (fin (w m)) else fin (w m)) = fin (w m) := by cases cyl <;> rfl
    simp only [List.foldl_cons, List.foldl_nil, List.map_append, List.map_cons, List.map_nil, this]
    unfold F.sum
    rw [List.foldl_append, List.foldl_append]
    rfl

/-- Adding up counts is exact. -/
theorem sum_counts [LawfulArith K] (l : List ℕ) (a : ℕ) (h : a + l.sum ≤ 2 ^ 53) :
    (l.map fun n : ℕ => fin (n : K)).foldl (· + ·) (fin (a : K)) = fin ((a + l.sum : ℕ) : K) := by
  induction l generalizing a with
  | nil => simp
  | cons n l ih =>
    rw [List.sum_cons] at h ⊢
    rw [List.map_cons, List.foldl_cons, F.add_fin, ← Nat.cast_add, F.rnd_nat _ (by omega), ih _ (by omega)]
    congr 2
    omega

/-- The weighted mean over a column of `m` cells, of which cell `k` has weight `n k` and holds a number close to `μ k` (NaN for weight 0). -/
theorem column_accurate [LawfulArith K] [RoundedArith K] (cyl : Bool) (m : ℕ) (hm : m < 2 ^ 52) (n : ℕ → ℕ) (d : ℕ → F K) (μ A : ℕ → K) (G κ : K)
    (hG0 : 0 ≤ G) (hG1 : G ≤ 1) (hκ0 : 0 ≤ κ) (hκ1 : κ ≤ 1)
    (hempty : ∀ k < m, n k = 0 → d k = F.nan) (hd : ∀ k < m, n k ≠ 0 → ∃ y, d k = fin y ∧ |y - μ k| ≤ G * A k + κ)
    (hμ : ∀ k < m, |μ k| ≤ A k) (hA : ∀ k < m, A k ≤ 2 * large K)
    (hpos : 0 < ((List.range m).map n).sum) (hN : ((List.range m).map n).sum < 2 ^ 52) :
    let N : K := (((List.range m).map n).sum : ℕ)
    let r := Store.collapseFold cyl d (fun k => fin (n k : K)) m
    ∃ y, r.1 / r.2 = fin y ∧ |y - ((List.range m).map fun k => (n k : K) * μ k).sum / N| ≤
      (G + (2 * m + 4) / 2 ^ 52) * (((List.range m).map fun k => (n k : K) * A k).sum / N) + 4 * κ + speck K := by
  intro N r
  have hu := roundoff_pos (K := K)
  have hu1 := roundoff_le (K := K)
  have ht := tiny_pos (K := K)
  have hL := large_pos (K := K)
  have hN1 : (1 : K) ≤ N := by change (1 : K) ≤ ((_ : ℕ) : K); exact_mod_cast hpos
  have hN0 : (0 : K) < N := by linarith
  have hA0 : ∀ k < m, 0 ≤ A k := fun k hk => (abs_nonneg _).trans (hμ k hk)
  -- one product
  have prod : ∀ k, ∃ p, k < m → Store.nz (d k) * fin (n k : K) = fin p ∧ IsDouble p ∧
      |p - n k * μ k| ≤ n k * ((G + 2 * roundoff K) * A k + 2 * κ) + tiny K := by
    intro k
    by_cases hk : k < m
    swap
    · exact ⟨0, fun h => absurd h hk⟩
    by_cases h0 : n k = 0
    · refine ⟨0, fun _ => ⟨?_, double_zero, ?_⟩⟩
      · rw [hempty k hk h0, h0]
        change ((fin 0 : F K) * fin ((0 : ℕ) : K)) = fin 0
        rw [F.mul_fin, Nat.cast_zero, mul_zero, F.rnd_zero]
      · rw [h0]
        simp [ht.le]
    · obtain ⟨y, hy, he⟩ := hd k hk h0
      have hnk : (0 : K) ≤ n k := Nat.cast_nonneg _
      have hnN : (n k : K) ≤ 2 ^ 52 := by
        have h1 : n k ≤ ((List.range m).map n).sum := List.single_le_sum (by simp) _ (List.mem_map.2 ⟨k, List.mem_range.2 hk, rfl⟩)
        exact_mod_cast (h1.trans hN.le)
      have hyb : |y| ≤ (1 + G) * A k + κ := by
        have h1 := abs_add_le (y - μ k) (μ k)
        rw [sub_add_cancel] at h1
        have := hμ k hk
        linarith
      have hyL : |y| ≤ 8 * large K := by
        have h1 : (1 + G) * A k ≤ 2 * (2 * large K) := mul_le_mul (by linarith) (hA k hk) (hA0 k hk) (by norm_num)
        have := one_le_large (K := K)
        linarith
      have hfit : |y * n k| ≤ huge K := by
        rw [abs_mul, abs_of_nonneg hnk]
        have h1 : |y| * n k ≤ 8 * large K * large K := mul_le_mul hyL (hnN.trans (by unfold large; exact pow_le_pow_right₀ (by norm_num) (by norm_num))) hnk (by positivity)
        have h2 := large_huge (K := K)
        have h3 : 0 < large K * large K := mul_pos hL hL
        linarith
      obtain ⟨p, hp⟩ := RoundedArith.rnd_finite _ hfit
      refine ⟨p, fun _ => ⟨?_, double_of_rnd hp, ?_⟩⟩
      · rw [hy]
        exact hp
      · have h1 := RoundedArith.rnd_err _ p hp
        rw [abs_mul, abs_of_nonneg hnk] at h1
        have h2 := abs_add_le (p - y * n k) (y * n k - n k * μ k)
        rw [show p - y * n k + (y * n k - n k * μ k) = p - n k * μ k by ring, show y * n k - n k * μ k = n k * (y - μ k) by ring, abs_mul (n k : K), abs_of_nonneg hnk] at h2
        have h3 := mul_le_mul_of_nonneg_left he hnk
        have h4 : |y| ≤ 2 * A k + κ := by
          have : G * A k ≤ 1 * A k := mul_le_mul_of_nonneg_right hG1 (hA0 k hk)
          linarith [add_mul 1 G (A k)]
        have h5 : roundoff K * (|y| * n k) ≤ n k * (2 * roundoff K * A k + κ) := by
          have h6 : roundoff K * |y| ≤ 2 * roundoff K * A k + κ := by
            have h7 := mul_le_mul_of_nonneg_left h4 hu.le
            have h8 : roundoff K * κ ≤ 1 * κ := mul_le_mul_of_nonneg_right (by linarith) hκ0
            linarith [mul_add (roundoff K) (2 * A k) κ]
          calc roundoff K * (|y| * n k) = n k * (roundoff K * |y|) := by ring
            _ ≤ _ := mul_le_mul_of_nonneg_left h6 hnk
        have e : (n k : K) * ((G + 2 * roundoff K) * A k + 2 * κ) = n k * (2 * roundoff K * A k + κ) + n k * (G * A k + κ) := by ring
        rw [e]
        linarith
  choose p hp using prod
  have hr1 : r.1 = F.sum (((List.range m).map p).map fin) := by
    change (Store.collapseFold cyl d (fun k => fin (n k : K)) m).1 = _
    rw [collapseFold_sums, List.map_map]
    dsimp only
    congr 1
    exact List.map_congr_left fun k hk => (hp k (List.mem_range.1 hk)).1
  have hr2 : r.2 = fin N := by
    change (Store.collapseFold cyl d (fun k => fin (n k : K)) m).2 = _
    rw [collapseFold_sums]
    dsimp only
    have := sum_counts (K := K) ((List.range m).map n) 0 (by omega)
    rw [List.map_map, Nat.cast_zero, zero_add] at this
    exact this
  -- sums
  set a := ((List.range m).map fun k => (n k : K) * A k).sum with ha
  have hNsum : ((List.range m).map fun k => (n k : K)).sum = N := by
    change _ = ((((List.range m).map n).sum : ℕ) : K)
    generalize List.range m = L
    induction L with
    | nil => simp
    | cons x L ih => rw [List.map_cons, List.sum_cons, List.map_cons, List.sum_cons, ih]; push_cast; rfl
  have ha0 : 0 ≤ a := List.sum_nonneg (by
    intro x hx
    obtain ⟨k, hk, rfl⟩ := List.mem_map.1 hx
    exact mul_nonneg (Nat.cast_nonneg _) (hA0 k (List.mem_range.1 hk)))
  have split : ∀ α β : K, ((List.range m).map fun k => (n k : K) * (α * A k + β) + tiny K).sum = α * a + β * N + m * tiny K := by
    intro α β
    rw [ha, ← hNsum]
    have : ∀ L : List ℕ, (L.map fun k => (n k : K) * (α * A k + β) + tiny K).sum =
        α * (L.map fun k => (n k : K) * A k).sum + β * (L.map fun k => (n k : K)).sum + L.length * tiny K := by
      intro L
      induction L with
      | nil => simp
      | cons x L ih => rw [List.map_cons, List.sum_cons, ih, List.map_cons, List.sum_cons, List.map_cons, List.sum_cons, List.length_cons]; push_cast; ring
    rw [this, List.length_range]
  have hdiff := sums_near (List.range m) p (fun k => (n k : K) * μ k) _ fun k hk => (hp k (List.mem_range.1 hk)).2.2
  rw [split] at hdiff
  have habs : ((List.range m).map fun k => |p k|).sum ≤ (1 + G + 2 * roundoff K) * a + 2 * κ * N + m * tiny K := by
    rw [← split]
    refine sums_le _ _ _ fun k hk => ?_
    have hk := List.mem_range.1 hk
    have h1 := (hp k hk).2.2
    have h2 := abs_add_le (p k - n k * μ k) (n k * μ k)
    have hnk : (0 : K) ≤ n k := Nat.cast_nonneg _
    rw [sub_add_cancel, abs_mul, abs_of_nonneg hnk] at h2
    have h3 := mul_le_mul_of_nonneg_left (hμ k hk) hnk
    have e : (n k : K) * ((1 + G + 2 * roundoff K) * A k + 2 * κ) = n k * A k + n k * ((G + 2 * roundoff K) * A k + 2 * κ) := by ring
    rw [e]
    linarith
  have hmK : (m : K) + 1 ≤ 2 ^ 52 := by exact_mod_cast hm
  have hm0 : (0 : K) ≤ m := Nat.cast_nonneg _
  have hsp : 2 * (m * tiny K) + tiny K ≤ speck K := by
    have h1 : tiny K * (2 * 2 ^ 52) ≤ speck K := by
      unfold tiny speck
      rw [one_div, one_div, ← div_eq_inv_mul, div_le_iff₀ (by positivity), ← div_eq_inv_mul, le_div_iff₀ (by positivity)]
      have e : (2 : K) ^ 1075 = 2 * 2 ^ 52 * 2 ^ 535 * 2 ^ 487 := by
        rw [show (2 : K) * 2 ^ 52 = 2 ^ 53 by norm_num, ← pow_add, ← pow_add]
      rw [e]
      exact le_mul_of_one_le_right (by positivity) (one_le_pow₀ (by norm_num))
    have h2 : tiny K * (2 * m + 1) ≤ tiny K * (2 * 2 ^ 52) := mul_le_mul_of_nonneg_left (by linarith) ht.le
    linarith [h1.trans' h2, show 2 * ((m : K) * tiny K) + tiny K = tiny K * (2 * m + 1) by ring]
  have hbig : a ≤ N * (2 * large K) := by
    rw [ha, ← hNsum, mul_comm, ← List.sum_map_mul_left]
    refine sums_le _ _ _ fun k hk => ?_
    have h1 := mul_le_mul_of_nonneg_left (hA k (List.mem_range.1 hk)) (Nat.cast_nonneg (α := K) (n k))
    linarith
  have hfit : ((List.range m).map fun k => |p k|).sum ≤ huge K / 2 := by
    have h1 := many_fit (K := K) _ hN
    change N * _ ≤ _ at h1
    have h2 : (1 + G + 2 * roundoff K) * a ≤ 3 * (N * (2 * large K)) := mul_le_mul (by linarith) hbig ha0 (by norm_num)
    have hNL : N * 1 ≤ N * large K := mul_le_mul_of_nonneg_left one_le_large hN0.le
    have h3 : 2 * κ * N ≤ 1 * (N * large K) + N * large K := by
      have : κ * N ≤ 1 * N := mul_le_mul_of_nonneg_right hκ1 hN0.le
      linarith
    have hs1 := speck_le_one (K := K)
    have h4 : (m : K) * tiny K ≤ 0 + N * large K := by
      have : 0 ≤ (m : K) * tiny K := by positivity
      linarith
    -- six plus two fill the eight, so share out the last term
    have h5 : (1 + G + 2 * roundoff K) * a ≤ (2 + 1 / 8) * (N * (2 * large K)) := mul_le_mul (by linarith) hbig ha0 (by norm_num)
    have hNLp : 0 < N * large K := mul_pos hN0 hL
    linarith
  obtain ⟨y, hy, he⟩ := quotient_accurate ((List.range m).map p) (by
    intro v hv
    obtain ⟨k, hk, rfl⟩ := List.mem_map.1 hv
    exact (hp k (List.mem_range.1 hk)).2.1) (by simpa using hm) (by rw [List.map_map]; exact hfit) N hN1
  refine ⟨y, by rw [hr1, hr2]; exact hy, ?_⟩
  rw [List.map_map, List.length_map, List.length_range] at he
  set M : K := ((m : K) + 1) / 2 ^ 52 with hM
  have hM0 : 0 ≤ M := by positivity
  have hM1 : M ≤ 1 := by rw [hM, div_le_one (by norm_num)]; exact hmK
  set P := ((List.range m).map fun k => |p k|).sum with hP
  set S := ((List.range m).map fun k => (n k : K) * μ k).sum with hS
  set T := ((List.range m).map p).sum with hT
  change |y - T / N| ≤ M * (P / N) + tiny K at he
  have h1 := abs_add_le (y - T / N) (T / N - S / N)
  rw [sub_add_sub_cancel, ← sub_div T, abs_div (T - S), abs_of_pos hN0] at h1
  have h2 : |T - S| / N ≤ (G + 2 * roundoff K) * (a / N) + 2 * κ + m * tiny K := by
    rw [div_le_iff₀ hN0]
    have e : ((G + 2 * roundoff K) * (a / N) + 2 * κ + m * tiny K) * N = (G + 2 * roundoff K) * a + 2 * κ * N + m * tiny K * N := by field_simp
    rw [e]
    have : (m : K) * tiny K * 1 ≤ m * tiny K * N := mul_le_mul_of_nonneg_left hN1 (by positivity)
    linarith
  have h3 : P / N ≤ (2 + 2 * roundoff K) * (a / N) + 2 * κ + m * tiny K := by
    rw [div_le_iff₀ hN0]
    have e : ((2 + 2 * roundoff K) * (a / N) + 2 * κ + m * tiny K) * N = (2 + 2 * roundoff K) * a + 2 * κ * N + m * tiny K * N := by field_simp
    rw [e]
    have h4 : (m : K) * tiny K * 1 ≤ m * tiny K * N := mul_le_mul_of_nonneg_left hN1 (by positivity)
    have h5 : (1 + G + 2 * roundoff K) * a ≤ (2 + 2 * roundoff K) * a := mul_le_mul_of_nonneg_right (by linarith) ha0
    linarith
  have haN : 0 ≤ a / N := div_nonneg ha0 hN0.le
  have h4 := mul_le_mul_of_nonneg_left h3 hM0
  have h5 : M * ((2 + 2 * roundoff K) * (a / N) + 2 * κ + m * tiny K) ≤ (2 * M + 2 * roundoff K) * (a / N) + 2 * κ + m * tiny K := by
    have e1 : M * ((2 + 2 * roundoff K) * (a / N) + 2 * κ + m * tiny K) = 2 * M * (a / N) + M * (2 * roundoff K * (a / N) + (2 * κ + m * tiny K)) := by ring
    have e2 : M * (2 * roundoff K * (a / N) + (2 * κ + m * tiny K)) ≤ 1 * (2 * roundoff K * (a / N) + (2 * κ + m * tiny K)) :=
      mul_le_mul_of_nonneg_right hM1 (by positivity)
    rw [e1]
    linarith [add_mul (2 * M) (2 * roundoff K) (a / N)]
  have e6 : (G + (2 * m + 4) / 2 ^ 52) * (a / N) = (G + 2 * roundoff K) * (a / N) + (2 * M + 2 * roundoff K) * (a / N) := by
    rw [← add_mul, hM]
    congr 1
    unfold roundoff
    norm_num
    ring
  rw [e6]
  linarith

end Up4
