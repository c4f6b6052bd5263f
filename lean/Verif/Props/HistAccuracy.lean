import Verif.Props.LaceyAccuracy
import Verif.Props.Histogram
import Verif.Props.Accuracy
import Verif.Proofs.Variance

set_option linter.unusedSectionVars false

/-!
# C157: the histogram in floating-point arithmetic
-/

namespace Up4
open F
open Selector (at')

variable {K : Type} [Field K] [LinearOrder K] [IsStrictOrderedRing K] [FloorRing K] [Arith K]

theorem tiny_unit (M : K) (hM : 1 / 2 ^ 400 ≤ M) : tiny K ≤ roundoff K * M := by
  unfold tiny roundoff
  have h1 : (1 : K) / 2 ^ 1075 ≤ 1 / 2 ^ 53 * (1 / 2 ^ 400) := by
    rw [div_mul_div_comm, one_mul, ← pow_add]
    exact one_div_le_one_div_of_le (by positivity) (pow_le_pow_right₀ one_le_two (by norm_num))
  exact h1.trans (mul_le_mul_of_nonneg_left hM (by positivity))

/-- The bin number is below `k` if the quotient is. -/
theorem bin_lt [LawfulArith K] (mn e v D Δ y : K) (k : ℕ) (h1 : (fin v - fin mn : F K) = fin D) (h2 : (fin e - fin mn : F K) = fin Δ) (hΔ : Δ ≠ 0)
    (hy : Arith.rnd (D / Δ) ≤ fin y) (hk : y < k) (hk0 : 0 < k) : binOf (fin mn) (fin e) (fin v) < k := by
  unfold binOf
  rw [h1, h2, F.div_fin_ne _ hΔ]
  cases hr : Arith.rnd (D / Δ) with
  | nan => exact absurd hr (LawfulArith.rnd_ne_nan _)
  | ninf => exact hk0
  | pinf => rw [hr] at hy; simp at hy
  | fin q =>
    rw [hr, F.le_fin] at hy
    change min ⌊((⌊q⌋ : ℤ) : K)⌋₊ usizeMax < k
    have hfl : ⌊((⌊q⌋ : ℤ) : K)⌋₊ = ⌊q⌋.toNat := by rw [← Int.floor_toNat, Int.floor_intCast]
    rw [hfl]
    have : ⌊q⌋ < (k : ℤ) := by rw [Int.floor_lt]; push_cast; linarith
    exact lt_of_le_of_lt (min_le_left _ _) (by omega)

/-- The bin number is at least `k` if the quotient is. -/
theorem bin_ge [LawfulArith K] (mn e v D Δ : K) (k : ℕ) (hk : k ≤ 2 ^ 53) (h1 : (fin v - fin mn : F K) = fin D) (h2 : (fin e - fin mn : F K) = fin Δ) (hΔ : Δ ≠ 0)
    (hy : (k : K) ≤ D / Δ) : k ≤ binOf (fin mn) (fin e) (fin v) := by
  have hku : k ≤ (usizeMax) := by unfold usizeMax; omega
  unfold binOf
  rw [h1, h2, F.div_fin_ne _ hΔ]
  have hm := LawfulArith.rnd_mono _ _ hy
  rw [F.rnd_nat k hk] at hm
  cases hr : Arith.rnd (D / Δ) with
  | nan => exact absurd hr (LawfulArith.rnd_ne_nan _)
  | ninf => rw [hr] at hm; simp at hm
  | pinf => exact hku
  | fin q =>
    rw [hr, F.le_fin] at hm
    change k ≤ min ⌊((⌊q⌋ : ℤ) : K)⌋₊ usizeMax
    have hfl : ⌊((⌊q⌋ : ℤ) : K)⌋₊ = ⌊q⌋.toNat := by rw [← Int.floor_toNat, Int.floor_intCast]
    rw [hfl]
    have : (k : ℤ) ≤ ⌊q⌋ := by rw [Int.le_floor]; push_cast; exact hm
    exact le_min (by omega) hku

/-- The lowest and highest edge, their bound and the number of bins: not more bins than a double can tell apart. -/
structure HistRange (mn mx M : K) (bins : ℕ) : Prop where
  lo : IsDouble mn
  hi : IsDouble mx
  lo_le : |mn| ≤ M
  hi_le : |mx| ≤ M
  small : 1 / 2 ^ 400 ≤ M
  big : M ≤ 2 ^ 400
  some : 1 ≤ bins
  few : (bins : K) * M ≤ 2 ^ 46 * (mx - mn)

/-- The exact edge. -/
def exactEdge (mn mx : K) (bins k : ℕ) : K := mn + k * ((mx - mn) / bins)

theorem HistRange.facts {mn mx M : K} {bins : ℕ} (h : HistRange mn mx M bins) : 0 < M ∧ mn < mx ∧ mx - mn ≤ 2 * M ∧ (0 : K) < bins ∧ bins ≤ 2 ^ 47 ∧
    M / 2 ^ 46 ≤ (mx - mn) / bins := by
  have hM : 0 < M := lt_of_lt_of_le (by positivity) h.small
  have hb : (0 : K) < bins := by exact_mod_cast h.some
  have h1 := abs_le.1 h.lo_le
  have h2 := abs_le.1 h.hi_le
  have hL : mx - mn ≤ 2 * M := by linarith
  have h3 : 0 < mx - mn := by
    have : 0 < (bins : K) * M := mul_pos hb hM
    have h4 := h.few
    by_contra hc
    have : 2 ^ 46 * (mx - mn) ≤ 0 := mul_nonpos_of_nonneg_of_nonpos (by positivity) (not_lt.1 hc)
    linarith
  refine ⟨hM, by linarith, hL, hb, ?_, ?_⟩
  · have h4 : (bins : K) * M ≤ 2 ^ 47 * M := by
      have := mul_le_mul_of_nonneg_left hL (show (0 : K) ≤ 2 ^ 46 by positivity)
      have e : (2 : K) ^ 47 * M = 2 ^ 46 * (2 * M) := by rw [show (47 : ℕ) = 46 + 1 from rfl, pow_succ]; ring
      rw [e]
      exact h.few.trans this
    have h5 := le_of_mul_le_mul_right h4 hM
    exact_mod_cast h5
  · rw [div_le_div_iff₀ (by positivity) hb]
    have := h.few
    linarith

/-- The computed edges. -/
theorem edge_near [LawfulArith K] [RoundedArith K] (st : Stats K) (maxLimit : F K) {bins : ℕ} {mn mx M : K} (h : HistRange mn mx M bins)
    (h1 : st.speed 0 = fin mn) (h2 : histMax st maxLimit = fin mx) {k : ℕ} (hk : k ≤ bins) :
    ∃ e, (binEdges st maxLimit bins).getD k F.nan = fin e ∧ IsDouble e ∧ |e - exactEdge mn mx bins k| ≤ 20 * (roundoff K * M) ∧
      (k = 0 → e = mn) ∧ (k = bins → e = mx) := by
  obtain ⟨hM, hlt, hL, hb, hb47, _⟩ := h.facts
  have hu := roundoff_pos (K := K)
  have hu1 := roundoff_le (K := K)
  have htM := tiny_unit M h.small
  have ht := tiny_pos (K := K)
  have huM : 0 < roundoff K * M := mul_pos hu hM
  have hM100 : ∀ c : K, 0 ≤ c → c ≤ 1024 → c * M ≤ huge K := fun c h0 hc => by
    have e : (2 : K) ^ 410 ≤ huge K := pow_le_pow_right₀ one_le_two (by norm_num)
    refine le_trans ?_ e
    rw [show (410 : ℕ) = 10 + 400 from rfl, pow_add]
    exact mul_le_mul (hc.trans (by norm_num)) h.big hM.le (by positivity)
  unfold histMax at h2
  unfold binEdges
  dsimp only
  rw [h1, h2]
  rcases Nat.lt_or_eq_of_le hk with hlt' | rfl
  · rw [List.getD_eq_getElem?_getD, List.getElem?_append_left (by simpa using hlt'), List.getElem?_map, List.getElem?_range hlt']
    simp only [Option.map_some, Option.getD_some]
    have hLb : |mx - mn| ≤ 2 * M := by rw [abs_of_pos (by linarith)]; exact hL
    obtain ⟨L, l1, l2⟩ := rnd_near (mx - mn) (2 * M) hLb (hM100 2 (by norm_num) (by norm_num))
    have hLhat : |L| ≤ 3 * M := by
      have := abs_add_le (L - (mx - mn)) (mx - mn)
      rw [sub_add_cancel] at this
      nlinarith
    have hb1 : (1 : K) ≤ bins := by exact_mod_cast h.some
    have hw0 : |L / bins| ≤ 3 * M / bins := by rw [abs_div, abs_of_pos hb]; exact div_le_div_of_nonneg_right hLhat hb.le
    have hw3 : 3 * M / bins ≤ 3 * M := div_le_self (by linarith) hb1
    obtain ⟨w, w1, w2⟩ := rnd_near (L / (bins : K)) (3 * M / bins) hw0 (hw3.trans (hM100 3 (by norm_num) (by norm_num)))
    have hkb : (k : K) ≤ bins := by exact_mod_cast hk
    have hk0 : (0 : K) ≤ k := Nat.cast_nonneg _
    have hkt : (k : K) * tiny K ≤ roundoff K * M := by
      have h47 : (k : K) ≤ 2 ^ 47 := hkb.trans (by exact_mod_cast hb47)
      have e : (2 : K) ^ 47 * tiny K ≤ roundoff K * (1 / 2 ^ 400) := by
        unfold tiny roundoff
        rw [div_mul_div_comm, one_mul, ← pow_add, mul_one_div, div_le_div_iff₀ (by positivity) (by positivity), ← pow_add, one_mul]
        exact pow_le_pow_right₀ one_le_two (by norm_num)
      exact ((mul_le_mul_of_nonneg_right h47 ht.le).trans e).trans (mul_le_mul_of_nonneg_left h.small hu.le)
    have hkw : |k * w - k * ((mx - mn) / bins)| ≤ 7 * (roundoff K * M) := by
      rw [← mul_sub, abs_mul, abs_of_nonneg hk0]
      have a1 : |w - (mx - mn) / bins| ≤ roundoff K * (3 * M / bins) + tiny K + (roundoff K * (2 * M) + tiny K) / bins := by
        have a2 := abs_sub_le w (L / bins) ((mx - mn) / bins)
        rw [← sub_div, abs_div (L - (mx - mn)), abs_of_pos hb] at a2
        have := div_le_div_of_nonneg_right l2 hb.le
        linarith
      have a3 := mul_le_mul_of_nonneg_left a1 hk0
      have a4 : (k : K) * (roundoff K * (3 * M / bins) + tiny K + (roundoff K * (2 * M) + tiny K) / bins) =
          (k : K) / bins * (5 * (roundoff K * M) + tiny K) + k * tiny K := by field_simp; ring
      have a5 : (k : K) / bins ≤ 1 := by rw [div_le_one hb]; exact hkb
      have a6 := mul_le_mul_of_nonneg_right a5 (show 0 ≤ 5 * (roundoff K * M) + tiny K by linarith)
      linarith
    have hkW : |k * ((mx - mn) / bins)| ≤ 2 * M := by
      have : (k : K) * ((mx - mn) / bins) = k / bins * (mx - mn) := by ring
      rw [this, abs_mul, abs_of_nonneg (div_nonneg hk0 hb.le)]
      have a5 : (k : K) / bins ≤ 1 := by rw [div_le_one hb]; exact hkb
      calc _ ≤ 1 * (2 * M) := mul_le_mul a5 hLb (abs_nonneg _) zero_le_one
        _ = _ := one_mul _
    have huM1 : roundoff K * M ≤ M / 16 := by nlinarith
    have hkwb : |k * w| ≤ 3 * M := by
      have := abs_add_le (k * w - k * ((mx - mn) / bins)) (k * ((mx - mn) / bins))
      rw [sub_add_cancel] at this
      linarith
    obtain ⟨t, t1, t2⟩ := rnd_near (k * w) (3 * M) hkwb (hM100 3 (by norm_num) (by norm_num))
    have htb : |t| ≤ 4 * M := by
      have := abs_add_le (t - k * w) (k * w)
      rw [sub_add_cancel] at this
      linarith
    obtain ⟨e, e1, e2⟩ := rnd_near (mn + t) (5 * M) ((abs_add_le _ _).trans (by have := h.lo_le; linarith)) (hM100 5 (by norm_num) (by norm_num))
    have key : (fin mn + F.ofNat k * ((fin mx - fin mn) / F.ofNat bins) : F K) = fin e := by
      rw [show (F.ofNat k : F K) = fin (k : K) from F.rnd_nat _ (by omega), show (F.ofNat bins : F K) = fin (bins : K) from F.rnd_nat _ (by omega),
        F.sub_fin, l1, F.div_fin_ne _ hb.ne', w1, F.mul_fin, t1, F.add_fin, e1]
    refine ⟨e, key, double_of_rnd e1, ?_, ?_, fun hc => absurd hc hlt'.ne⟩
    · unfold exactEdge
      have a1 := abs_sub_le e (mn + t) (mn + k * ((mx - mn) / bins))
      have a2 : |mn + t - (mn + k * ((mx - mn) / bins))| ≤ |t - k * w| + |k * w - k * ((mx - mn) / bins)| := by
        rw [add_sub_add_left_eq_sub]; exact abs_sub_le _ _ _
      have a3 : roundoff K * (5 * M) = 5 * (roundoff K * M) := by ring
      have a4 : roundoff K * (3 * M) = 3 * (roundoff K * M) := by ring
      linarith
    · intro hk0'
      subst hk0'
      have t0 : t = 0 := by
        rw [Nat.cast_zero, zero_mul, show Arith.rnd (0 : K) = fin 0 from double_zero] at t1
        injection t1 with t1; exact t1.symm
      rw [t0, add_zero, show Arith.rnd mn = fin mn from h.lo] at e1
      injection e1 with e1; exact e1.symm
  · rw [List.getD_eq_getElem?_getD, List.getElem?_append_right (by simp)]
    simp only [List.length_map, List.length_range, Nat.sub_self, List.getElem?_cons_zero, Option.getD_some]
    refine ⟨mx, rfl, h.hi, ?_, fun hc => ?_, fun _ => rfl⟩
    · have : exactEdge mn mx k k = mx := by unfold exactEdge; field_simp; ring
      rw [this, sub_self, abs_zero]; positivity
    · exact absurd h.some (by omega)

/-- What a user can rely on when reading a bin: how far from an edge a speed must be to be surely on one side of it. -/
def edgeMargin (M : K) (bins : ℕ) : K := (bins + 3) * M / 2 ^ 48

set_option maxHeartbeats 1000000 in
/-- A speed below an edge by the margin is counted below it, one above it by the margin above it. -/
theorem bins_near [LawfulArith K] [RoundedArith K] (st : Stats K) (maxLimit : F K) {bins : ℕ} {mn mx M : K} (h : HistRange mn mx M bins)
    (h1 : st.speed 0 = fin mn) (h2 : histMax st maxLimit = fin mx) (v : K) (hv : |v| ≤ 2 ^ 502) {k : ℕ} (hk : k ≤ bins) (hk0 : 0 < k) :
    (v ≤ exactEdge mn mx bins k - (k + 2) * (32 * (roundoff K * M)) → binNo (binEdges st maxLimit bins) (fin v) < k) ∧
    (exactEdge mn mx bins k + (k + 2) * (32 * (roundoff K * M)) ≤ v → k ≤ binNo (binEdges st maxLimit bins) (fin v)) := by
  obtain ⟨hM, hlt, hL, hb, hb47, hW⟩ := h.facts
  have hu := roundoff_pos (K := K)
  have hu1 := roundoff_le (K := K)
  have htM := tiny_unit M h.small
  have ht := tiny_pos (K := K)
  have huM : 0 < roundoff K * M := mul_pos hu hM
  have huM1 : roundoff K * M ≤ M / 16 := by nlinarith
  obtain ⟨e0, a1, _, _, a3, _⟩ := edge_near st maxLimit h h1 h2 (Nat.zero_le bins)
  have a3 := a3 rfl
  obtain ⟨e1, b1, b2, b3, _, _⟩ := edge_near st maxLimit h h1 h2 h.some
  have hE1 : exactEdge mn mx bins 1 = mn + (mx - mn) / bins := by unfold exactEdge; rw [Nat.cast_one, one_mul]
  rw [hE1] at b3
  have hEk : exactEdge mn mx bins k = mn + k * ((mx - mn) / bins) := rfl
  rw [hEk]
  have hkb : (k : K) ≤ bins := by exact_mod_cast hk
  have hk1 : (1 : K) ≤ k := by exact_mod_cast hk0
  have hkL : (k : K) * ((mx - mn) / bins) ≤ 2 * M := by
    have e : (k : K) * ((mx - mn) / bins) = k / bins * (mx - mn) := by ring
    have a5 : (k : K) / bins ≤ 1 := by rw [div_le_one hb]; exact hkb
    rw [e]
    have := mul_le_mul a5 hL (by linarith) zero_le_one
    linarith
  have hkm : ((k : K) + 2) * (32 * (roundoff K * M)) ≤ 2 * M := by
    have h47 : (k : K) ≤ 2 ^ 47 := hkb.trans (by exact_mod_cast hb47)
    have : ((k : K) + 2) * (32 * roundoff K) ≤ 2 := by
      unfold roundoff
      have : ((k : K) + 2) * (32 * (1 / 2 ^ 53)) = (k + 2) / 2 ^ 48 := by
        rw [show (2 : K) ^ 53 = 32 * 2 ^ 48 by norm_num]; field_simp
      rw [this, div_le_iff₀ (by positivity)]
      have : (2 : K) ^ 48 = 2 * 2 ^ 47 := by norm_num
      have : (2 : K) ≤ 2 ^ 47 := by norm_num
      linarith
    have := mul_le_mul_of_nonneg_right this hM.le
    linarith
  have hW4 : 128 * (roundoff K * M) ≤ (mx - mn) / bins := by
    refine le_trans (le_of_eq ?_) hW
    unfold roundoff
    rw [show (2 : K) ^ 53 = 128 * 2 ^ 46 by norm_num]; field_simp
  have hWM : (mx - mn) / bins ≤ 2 * M := by
    refine le_trans ?_ hkL
    exact le_mul_of_one_le_left (div_nonneg (by linarith) hb.le) hk1
  generalize hWdef : (mx - mn) / (bins : K) = W at *
  generalize hρ : roundoff K * M = ρ at *
  -- the computed width
  have hd : |e1 - mn - W| ≤ 20 * ρ := by rw [show e1 - mn - W = e1 - (mn + W) by ring]; exact b3
  have hdb : |e1 - mn| ≤ 4 * M := by
    have := abs_le.1 hd
    rw [abs_le]; constructor <;> linarith
  have hhuge : (2 : K) ^ 503 ≤ huge K := pow_le_pow_right₀ one_le_two (by norm_num)
  have h4M : 4 * M ≤ huge K := by
    refine le_trans ?_ hhuge
    have : (4 : K) * 2 ^ 400 ≤ 2 ^ 503 := by
      rw [show (4 : K) = 2 ^ 2 by norm_num, ← pow_add]; exact pow_le_pow_right₀ one_le_two (by norm_num)
    exact (mul_le_mul_of_nonneg_left h.big (by norm_num)).trans this
  obtain ⟨Δ, d1, d2⟩ := rnd_near (e1 - mn) (4 * M) hdb h4M
  have hΔ : |Δ - W| ≤ 32 * ρ := by
    have := abs_sub_le Δ (e1 - mn) W
    have e : roundoff K * (4 * M) = 4 * ρ := by rw [← hρ]; ring
    linarith
  have hΔ' := abs_le.1 hΔ
  have hΔ0 : 0 < Δ := by linarith
  have hvm : |v - mn| ≤ huge K := by
    refine (abs_sub v mn).trans (le_trans ?_ hhuge)
    have e400 : (2 : K) ^ 400 ≤ 2 ^ 502 := pow_le_pow_right₀ one_le_two (by norm_num)
    have := h.lo_le
    have := h.big
    rw [show (503 : ℕ) = 502 + 1 from rfl, pow_succ]
    generalize (2 : K) ^ 502 = X at *
    linarith
  obtain ⟨D, c1⟩ := RoundedArith.rnd_finite _ hvm
  have hbin : binNo (binEdges st maxLimit bins) (fin v) = binOf (fin mn) (fin e1) (fin v) := by
    unfold binNo; rw [a1, b1, a3]
  rw [hbin]
  have hsub : (fin v - fin mn : F K) = fin D := (F.sub_fin v mn).trans c1
  have hsubΔ : (fin e1 - fin mn : F K) = fin Δ := (F.sub_fin e1 mn).trans d1
  have hkW0 : 0 ≤ (k : K) * W := mul_nonneg (by linarith) (by linarith)
  have hkρ : 0 ≤ (k : K) * ρ := mul_nonneg (by linarith) huM.le
  constructor
  · intro hle
    -- the difference
    have x4 : |(k : K) * W - (k + 2) * (32 * ρ)| ≤ 4 * M := by rw [abs_le]; constructor <;> linarith
    obtain ⟨D0, f1, f2⟩ := rnd_near ((k : K) * W - (k + 2) * (32 * ρ)) (4 * M) x4 h4M
    have hm := LawfulArith.rnd_mono (v - mn) ((k : K) * W - (k + 2) * (32 * ρ)) (by linarith)
    rw [c1, f1, F.le_fin] at hm
    have e : roundoff K * (4 * M) = 4 * ρ := by rw [← hρ]; ring
    have f3 := (abs_le.1 f2).2
    have hq : D / Δ ≤ k * (1 - 2 * roundoff K) := by
      rw [div_le_iff₀ hΔ0]
      have g1 : (k : K) * (1 - 2 * roundoff K) * (W - 32 * ρ) ≤ k * (1 - 2 * roundoff K) * Δ :=
        mul_le_mul_of_nonneg_left (by linarith) (mul_nonneg (by linarith) (by linarith))
      have g2 : 2 * roundoff K * (k * W) ≤ 4 * ρ := by
        have := mul_le_mul_of_nonneg_left hkL hu.le
        rw [← hρ]; linarith
      have g3 : 0 ≤ roundoff K * (k * ρ) := mul_nonneg hu.le hkρ
      have g4 : (k : K) * (1 - 2 * roundoff K) * (W - 32 * ρ) = k * W - 32 * (k * ρ) - 2 * roundoff K * (k * W) + 64 * (roundoff K * (k * ρ)) := by ring
      linarith
    have hkb100 : |(k : K) * (1 - 2 * roundoff K)| ≤ k := by
      rw [abs_of_nonneg (mul_nonneg (by linarith) (by linarith))]
      exact mul_le_of_le_one_right (by linarith) (by linarith)
    have hkh : (k : K) ≤ huge K := by
      have : (k : K) ≤ 2 ^ 47 := hkb.trans (by exact_mod_cast hb47)
      exact this.trans (pow_le_pow_right₀ one_le_two (by norm_num))
    obtain ⟨y, y1⟩ := RoundedArith.rnd_finite _ (hkb100.trans hkh)
    have y2 := RoundedArith.rnd_err _ y y1
    have hr := LawfulArith.rnd_mono _ _ hq
    rw [y1] at hr
    refine bin_lt mn e1 v D Δ y k hsub hsubΔ hΔ0.ne' hr ?_ hk0
    have y3 := (abs_le.1 y2).2
    rw [abs_of_nonneg (mul_nonneg (by linarith : (0 : K) ≤ k) (by linarith))] at y3
    have htu : tiny K < roundoff K := by
      unfold tiny roundoff
      exact one_div_lt_one_div_of_lt (by positivity) (pow_lt_pow_right₀ one_lt_two (by norm_num))
    have g5 : roundoff K ≤ roundoff K * k := le_mul_of_one_le_right hu.le hk1
    have g6 : 0 ≤ roundoff K * roundoff K * k := by positivity
    have g7 : (k : K) * (1 - 2 * roundoff K) + roundoff K * (k * (1 - 2 * roundoff K)) = k - roundoff K * k - 2 * (roundoff K * roundoff K * k) := by ring
    clear hbin hsub hsubΔ hm hvm hhuge h4M hkh
    linarith
  · intro hle
    have x4 : |(k : K) * W + (k + 2) * (32 * ρ)| ≤ 4 * M := by
      have : 0 ≤ ((k : K) + 2) * (32 * ρ) := by positivity
      rw [abs_of_nonneg (by linarith)]; linarith
    obtain ⟨D0, f1, f2⟩ := rnd_near ((k : K) * W + (k + 2) * (32 * ρ)) (4 * M) x4 h4M
    have hm := LawfulArith.rnd_mono ((k : K) * W + (k + 2) * (32 * ρ)) (v - mn) (by linarith)
    rw [c1, f1, F.le_fin] at hm
    have e : roundoff K * (4 * M) = 4 * ρ := by rw [← hρ]; ring
    have f3 := (abs_le.1 f2).1
    refine bin_ge mn e1 v D Δ k (by omega) hsub hsubΔ hΔ0.ne' ?_
    rw [le_div_iff₀ hΔ0]
    have g1 : (k : K) * Δ ≤ k * (W + 32 * ρ) := mul_le_mul_of_nonneg_left (by linarith) (by linarith)
    linarith

/-- The number of bins of a sample by its exact speed. -/
theorem speed_bins [LawfulArith K] [RoundedArith K] (st : Stats K) (maxLimit : F K) {bins : ℕ} {mn mx M : K} (h : HistRange mn mx M bins)
    (h1 : st.speed 0 = fin mn) (h2 : histMax st maxLimit = fin mx) (w s : K) (hs0 : 0 ≤ s) (hw : |w - s| ≤ s / 2 ^ 51 + speck K) (hsl : s ≤ 2 * large K)
    {k : ℕ} (hk : k ≤ bins) (hk0 : 0 < k) :
    (s ≤ exactEdge mn mx bins k - edgeMargin M bins → binNo (binEdges st maxLimit bins) (fin w) < k) ∧
    (exactEdge mn mx bins k + edgeMargin M bins ≤ s → k ≤ binNo (binEdges st maxLimit bins) (fin w)) := by
  obtain ⟨hM, hlt, hL, hb, hb47, _⟩ := h.facts
  have hkb : (k : K) ≤ bins := by exact_mod_cast hk
  have hkn : (0 : K) ≤ k := Nat.cast_nonneg _
  have hsp := speck_pos (K := K)
  have hsM : speck K ≤ M / 2 ^ 52 := by
    have e : speck K ≤ 1 / 2 ^ 400 / 2 ^ 52 := by
      unfold speck
      rw [div_div, ← pow_add]
      exact one_div_le_one_div_of_le (by positivity) (pow_le_pow_right₀ one_le_two (by norm_num))
    exact e.trans (div_le_div_of_nonneg_right h.small (by positivity))
  have hw502 : |w| ≤ 2 ^ 502 := by
    have a1 := abs_add_le (w - s) s
    rw [sub_add_cancel, abs_of_nonneg hs0] at a1
    have a2 := speck_le_one (K := K)
    have a3 := one_le_large (K := K)
    have a4 : s / 2 ^ 51 ≤ s / 4 := div_le_div_of_nonneg_left hs0 (by norm_num) (by norm_num)
    have a5 : (2 : K) ^ 502 = 4 * large K := by
      unfold large
      rw [show (502 : ℕ) = 2 + 500 from rfl, pow_add]; norm_num
    have a6 : |w - s| ≤ s / 4 + 1 := hw.trans (add_le_add a4 a2)
    rw [a5]
    clear a4 hw a5
    linarith
  have hE : exactEdge mn mx bins k ≤ M := by
    have e : exactEdge mn mx bins k = mn + k / bins * (mx - mn) := by unfold exactEdge; ring
    have a5 : (k : K) / bins ≤ 1 := by rw [div_le_one hb]; exact hkb
    have := mul_le_mul_of_nonneg_right a5 (show 0 ≤ mx - mn by linarith)
    have := (abs_le.1 h.hi_le).2
    rw [e]; linarith
  have hmargin : edgeMargin M bins ≤ 2 * M := by
    unfold edgeMargin
    have h47 : (bins : K) ≤ 2 ^ 47 := by exact_mod_cast hb47
    have e47 : (2 : K) ^ 48 = 2 * 2 ^ 47 := by norm_num
    have e3 : (3 : K) ≤ 2 ^ 47 := by norm_num
    rw [div_le_iff₀ (by positivity)]
    have : ((bins : K) + 3) * M ≤ (2 * 2 ^ 48) * M := mul_le_mul_of_nonneg_right (by linarith) hM.le
    linarith
  have hunit : roundoff K * M = M / 2 ^ 48 / 32 := by
    unfold roundoff
    rw [show (2 : K) ^ 53 = 2 ^ 48 * 32 by norm_num]; field_simp
  have hsplit : edgeMargin M bins = (bins + 2) * (M / 2 ^ 48) + M / 2 ^ 48 := by unfold edgeMargin; ring
  have hk2 : ((k : K) + 2) * (32 * (roundoff K * M)) ≤ (bins + 2) * (M / 2 ^ 48) := by
    rw [hunit, mul_div_cancel₀ _ (by norm_num : (32 : K) ≠ 0)]
    exact mul_le_mul_of_nonneg_right (by linarith) (by positivity)
  have e51 : (2 : K) ^ 51 = 2 ^ 48 * 8 := by norm_num
  have e52 : M / 2 ^ 52 = M / 2 ^ 48 / 16 := by rw [div_div]; norm_num
  have hr0 : 0 ≤ M / 2 ^ 48 := by positivity
  have hw' := abs_le.1 hw
  obtain ⟨n1, n2⟩ := bins_near st maxLimit h h1 h2 w hw502 hk hk0
  rw [e52] at hsM
  constructor
  · intro hle
    refine n1 ?_
    have a0 : 0 ≤ edgeMargin M bins := by unfold edgeMargin; positivity
    have a1 : s / 2 ^ 51 ≤ M / 2 ^ 48 / 8 := by
      rw [e51, ← div_div]
      refine div_le_div_of_nonneg_right (div_le_div_of_nonneg_right ?_ (by positivity)) (by norm_num)
      linarith
    linarith [hw'.2]
  · intro hle
    refine n2 ?_
    have a1 : (1 - 1 / 2 ^ 51) * (exactEdge mn mx bins k + edgeMargin M bins) ≤ (1 - 1 / 2 ^ 51) * s :=
      mul_le_mul_of_nonneg_left hle (by rw [sub_nonneg, div_le_one (by positivity)]; exact one_le_pow₀ one_le_two)
    have a2 : (1 / 2 ^ 51 : K) * (exactEdge mn mx bins k + edgeMargin M bins) ≤ 1 / 2 ^ 51 * (3 * M) :=
      mul_le_mul_of_nonneg_left (by linarith) (by positivity)
    have a3 : (1 / 2 ^ 51 : K) * (3 * M) = 3 / 8 * (M / 2 ^ 48) := by rw [e51]; field_simp
    have a4 : (1 - 1 / 2 ^ 51) * s = s - s / 2 ^ 51 := by ring
    have a5 : (1 - 1 / 2 ^ 51 : K) * (exactEdge mn mx bins k + edgeMargin M bins) =
      (exactEdge mn mx bins k + edgeMargin M bins) - 1 / 2 ^ 51 * (exactEdge mn mx bins k + edgeMargin M bins) := by ring
    linarith [hw'.1]

/-- Bin `k`, read with a margin: `lo` counts the samples of the region whose speed surely lies in it, `hi` those whose speed possibly does. -/
def surelyInBin (mn mx M : K) (bins k : ℕ) (s : K) : Prop :=
  (k = 0 ∨ exactEdge mn mx bins k + edgeMargin M bins ≤ s) ∧ s ≤ exactEdge mn mx bins (k + 1) - edgeMargin M bins

/-- See `surelyInBin`. -/
def maybeInBin (mn mx M : K) (bins k : ℕ) (s : K) : Prop :=
  (k = 0 ∨ exactEdge mn mx bins k - edgeMargin M bins < s) ∧ s < exactEdge mn mx bins (k + 1) + edgeMargin M bins

/-- The bin as it is in exact arithmetic (`C39_histogram_partial`). -/
def inBin (mn mx : K) (bins k : ℕ) (s : K) : Prop := (k = 0 ∨ exactEdge mn mx bins k ≤ s) ∧ s < exactEdge mn mx bins (k + 1)

open Classical in
/-- **C157 (partial).** `histogram` in rounded arithmetic, with up to `2^46 (mx - mn) / M` bins between `mn` and `mx`, `M` a bound on both: every edge is within
`(bins + 3) M / 2^48` of `mn + k (mx - mn) / bins`; bin `k` holds a number of samples between the number of those whose exact speed lies in the bin by that margin,
and the number of those whose exact speed lies in the bin widened by the margin; and if no exact speed lies within the margin of an edge, it is the
number of exact arithmetic. Missing: what exact arithmetic already misses (`C39_false`): bin 0 has no lower end, the highest edge is in no bin. -/
theorem C157_histogram_partial [LawfulArith K] [RoundedArith K] (p : Profile) (d : Dm (Timestep K)) (hd : d.Inv) (st : Stats K)
    (grid : Grid K) (sel : Selector K) (hsel : sel.Usable) (hw : ∀ t, t < d.n → (d.file t).Wf) (hlen : (d.samples sel).length ≤ 2 ^ 53)
    (maxLimit : F K) (bins : ℕ) (mn mx M : K) (hr : HistRange mn mx M bins) (h1 : st.speed 0 = fin mn) (h2 : histMax st maxLimit = fin mx)
    (v : ℕ × ℕ → Fin 3 → K) (hv : ∀ x ∈ d.samples sel, grid.isInside (posOf d.file x) = true → StoredVel (velOf d.file x) (v x))
    (s : ℕ × ℕ → K) (hs : ∀ x, 0 ≤ s x ∧ s x * s x = v x 0 * v x 0 + v x 1 * v x 1 + v x 2 * v x 2) :
    ∃ d' h edges, histogram p d st grid sel "velocity" maxLimit bins = .ok (d', h, edges) ∧ h.shape = ![bins] ∧ edges.length = bins + 1 ∧
      (∀ k, k ≤ bins → ∃ e, edges.getD k F.nan = fin e ∧ |e - exactEdge mn mx bins k| ≤ edgeMargin M bins) ∧
      ∀ k, k < bins → ∃ n : ℕ, h.get ![k] = fin (n : K) ∧
        ((d.samples sel).countP fun x => grid.isInside (posOf d.file x) && decide (surelyInBin mn mx M bins k (s x))) ≤ n ∧
        n ≤ ((d.samples sel).countP fun x => grid.isInside (posOf d.file x) && decide (maybeInBin mn mx M bins k (s x))) ∧
        ((∀ x ∈ d.samples sel, grid.isInside (posOf d.file x) = true → ∀ j, j ≤ bins → edgeMargin M bins ≤ |s x - exactEdge mn mx bins j|) →
          n = (d.samples sel).countP fun x => grid.isInside (posOf d.file x) && decide (inBin mn mx bins k (s x))) := by
  obtain ⟨hM, hlt, hL, hb, hb47, _⟩ := hr.facts
  obtain ⟨d', h, e1, e2, e3, e4, e5, e6⟩ := histogram_run p d hd st grid sel hsel hw hlen maxLimit bins hr.some (by omega)
  have hm0 : 0 < edgeMargin M bins := by unfold edgeMargin; positivity
  refine ⟨d', h, _, e1, e5, binEdges_length _ _ _, fun k hk => ?_, fun k hk => ?_⟩
  · obtain ⟨e, a1, _, a2, _⟩ := edge_near st maxLimit hr h1 h2 hk
    refine ⟨e, a1, a2.trans ?_⟩
    unfold edgeMargin roundoff
    have : (20 : K) * (1 / 2 ^ 53 * M) = 20 / 32 * (M / 2 ^ 48) := by rw [show (2 : K) ^ 53 = 32 * 2 ^ 48 by norm_num]; field_simp
    rw [this, show ((bins : K) + 3) * M / 2 ^ 48 = (bins + 3) * (M / 2 ^ 48) by ring]
    exact mul_le_mul_of_nonneg_right (by linarith) (by positivity)
  · have hbin : ∀ x ∈ d.samples sel, grid.isInside (posOf d.file x) = true → ∀ j, j ≤ bins → 0 < j →
        (s x ≤ exactEdge mn mx bins j - edgeMargin M bins → binNo (binEdges st maxLimit bins) (speedOf d.file x) < j) ∧
        (exactEdge mn mx bins j + edgeMargin M bins ≤ s x → j ≤ binNo (binEdges st maxLimit bins) (speedOf d.file x)) := by
      intro x hx hin j hj hj0
      obtain ⟨vc, hvc, w, w1, _, w3, w4⟩ := mode_accurate "absolute" _ _ (s x) (hv x hx hin)
        (Or.inr (Or.inr (Or.inr ⟨(hs x).1, Or.inl ⟨rfl, (hs x).2⟩⟩)))
      cases hvc
      rw [abs_of_nonneg (hs x).1] at w3 w4
      have : speedOf d.file x = fin w := w1
      rw [this]
      exact speed_bins st maxLimit hr h1 h2 w (s x) (hs x).1 w3 w4 hj hj0
    have hlo : ((d.samples sel).countP fun x => grid.isInside (posOf d.file x) && decide (surelyInBin mn mx M bins k (s x))) ≤
        (d.samples sel).countP fun x => grid.isInside (posOf d.file x) && decide (binNo (binEdges st maxLimit bins) (speedOf d.file x) = k) := by
      refine List.countP_mono_left fun x hx hp => ?_
      rw [Bool.and_eq_true, decide_eq_true_eq] at hp ⊢
      obtain ⟨hin, q1, q2⟩ := hp
      refine ⟨hin, ?_⟩
      have a1 := (hbin x hx hin (k + 1) (by omega) (by omega)).1 q2
      rcases Nat.eq_zero_or_pos k with rfl | hk0
      · omega
      · have a2 := (hbin x hx hin k hk.le hk0).2 (q1.resolve_left hk0.ne')
        omega
    have hhi : ((d.samples sel).countP fun x => grid.isInside (posOf d.file x) && decide (binNo (binEdges st maxLimit bins) (speedOf d.file x) = k)) ≤
        (d.samples sel).countP fun x => grid.isInside (posOf d.file x) && decide (maybeInBin mn mx M bins k (s x)) := by
      refine List.countP_mono_left fun x hx hp => ?_
      rw [Bool.and_eq_true, decide_eq_true_eq] at hp ⊢
      obtain ⟨hin, hq⟩ := hp
      refine ⟨hin, ?_, ?_⟩
      · rcases Nat.eq_zero_or_pos k with h0 | hk0
        · exact Or.inl h0
        · refine Or.inr (not_le.1 fun hc => ?_)
          have := (hbin x hx hin k hk.le hk0).1 hc
          omega
      · refine not_le.1 fun hc => ?_
        have := (hbin x hx hin (k + 1) (by omega) (by omega)).2 hc
        omega
    refine ⟨_, e6 k hk, hlo, hhi, fun hfar => le_antisymm (hhi.trans ?_) (le_trans ?_ hlo)⟩
    · refine List.countP_mono_left fun x hx hp => ?_
      rw [Bool.and_eq_true, decide_eq_true_eq] at hp ⊢
      obtain ⟨hin, q1, q2⟩ := hp
      have f1 := hfar x hx hin k hk.le
      have f2 := hfar x hx hin (k + 1) (by omega)
      refine ⟨hin, q1.imp id fun q => ?_, ?_⟩
      · by_contra hc
        rw [abs_of_neg (by linarith [not_le.1 hc])] at f1
        linarith
      · by_contra hc
        rw [abs_of_nonneg (by linarith [not_lt.1 hc])] at f2
        linarith
    · refine List.countP_mono_left fun x hx hp => ?_
      rw [Bool.and_eq_true, decide_eq_true_eq] at hp ⊢
      obtain ⟨hin, q1, q2⟩ := hp
      have f1 := hfar x hx hin k hk.le
      have f2 := hfar x hx hin (k + 1) (by omega)
      refine ⟨hin, q1.imp id fun q => ?_, ?_⟩
      · rw [abs_of_nonneg (by linarith)] at f1
        linarith
      · rw [abs_of_neg (by linarith)] at f2
        linarith

/-- Case for `C157_histogram_partial`, in binary64: a particle of speed 1, three bins between 0 and 2 (edges 2/3 and 4/3 are no doubles): it is in the
middle bin, and only there. -/
example (p : Profile) (kind : Kind) (hdims : Fin 3 → F B64 × F B64) : ∃ (d d' : Dm (Timestep B64)) (h : Arr 1 (F B64)) (edges : List (F B64)),
    Dm.new p kind (fun _ => oneStep) 1 Timestep.default = .ok d ∧
    histogram p d ⟨hdims, 1, [fin 0], ![fin 0, fin 1, fin 2]⟩ unitGrid Selector.default "velocity" (fin 0) 3 = .ok (d', h, edges) ∧
    h.get ![0] = fin 0 ∧ h.get ![1] = fin 1 ∧ h.get ![2] = fin 0 ∧ ∃ e, edges.getD 1 F.nan = fin e ∧ |e - 2 / 3| ≤ 12 / 2 ^ 48 := by
  obtain ⟨d, e, hinv, hS, hw, hv, hc⟩ := one_stored p kind
  have h2 : IsDouble (2 : B64) := by
    have := F.rnd_nat (K := B64) 2 (by norm_num)
    exact_mod_cast this
  have hin : (unitGrid (K := B64)).isInside (posOf d.file (0, 0)) = true := by
    unfold inCell at hc
    rw [Bool.and_eq_true] at hc
    exact hc.1
  have hr : HistRange (0 : B64) 2 2 3 := by
    refine ⟨F.rnd_zero, h2, by norm_num, by norm_num, ?_, ?_, by norm_num, by norm_num⟩
    · refine le_trans ?_ (one_le_two (α := B64))
      rw [div_le_one (by positivity)]
      exact one_le_pow₀ one_le_two
    · exact le_self_pow₀ one_le_two (by norm_num)
  have hm : edgeMargin (2 : B64) 3 = 12 / 2 ^ 48 := by unfold edgeMargin; norm_num
  have x0 : exactEdge (0 : B64) 2 3 0 = 0 := by unfold exactEdge; norm_num
  have x1 : exactEdge (0 : B64) 2 3 1 = 2 / 3 := by unfold exactEdge; norm_num
  have x2 : exactEdge (0 : B64) 2 3 2 = 4 / 3 := by unfold exactEdge; norm_num
  have x3 : exactEdge (0 : B64) 2 3 3 = 2 := by unfold exactEdge; norm_num
  obtain ⟨d', h, edges, e1, _, _, e2, e3⟩ := C157_histogram_partial p d hinv ⟨hdims, 1, [fin 0], ![fin 0, fin 1, fin 2]⟩ unitGrid Selector.default
    usable_default hw (by rw [hS]; norm_num) (fin 0) 3 0 2 2 hr rfl (by unfold histMax; simp [F.eqB]) (fun _ => ![1, 0, 0])
    (by rw [hS]; intro x hx _; rw [List.mem_singleton.1 hx]; exact hv) (fun _ => 1) (by intro x; simp)
  have gap : ∀ x ∈ d.samples Selector.default, (unitGrid (K := B64)).isInside (posOf d.file x) = true → ∀ j, j ≤ 3 →
      edgeMargin (2 : B64) 3 ≤ |1 - exactEdge (0 : B64) 2 3 j| := by
    intro x _ _ j hj
    rw [hm]
    interval_cases j
    · rw [x0]; norm_num
    · rw [x1]; norm_num
    · rw [x2]; norm_num
    · rw [x3]; norm_num
  obtain ⟨n0, a0, _, _, b0⟩ := e3 0 (by norm_num)
  obtain ⟨n1, a1, _, _, b1⟩ := e3 1 (by norm_num)
  obtain ⟨n2, a2, _, _, b2⟩ := e3 2 (by norm_num)
  refine ⟨d, d', h, edges, e, e1, ?_, ?_, ?_, ?_⟩
  · rw [a0, b0 gap, hS]
    simp [inBin, hin, x0, x1]; norm_num
  · rw [a1, b1 gap, hS]
    simp [inBin, hin, x1, x2]; norm_num
  · rw [a2, b2 gap, hS]
    simp [inBin, hin, x2, x3]; norm_num
  · obtain ⟨e, q1, q2⟩ := e2 1 (by norm_num)
    refine ⟨e, q1, ?_⟩
    rw [x1, hm] at q2
    exact q2

end Up4
