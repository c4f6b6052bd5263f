import Verif.Props.Heat
import Verif.Props.Dispersion

set_option linter.unusedSectionVars false

/-!
# C109: dispersion in binary64
-/

namespace Up4
open F

variable {K : Type} [Field K] [LinearOrder K] [IsStrictOrderedRing K] [FloorRing K] [Arith K]

/-- What `dispersion` computes from the later positions of one cell. -/
theorem spread_accurate [LawfulArith K] [RoundedArith K] (n : ℕ) (hn : 1 < n) (hlen : n < 2 ^ 52) (l : Fin 3 → List K)
    (hl : ∀ a, (l a).length = n) (hv : ∀ a, ∀ v ∈ l a, IsDouble v ∧ |v| ≤ 2 ^ 400) :
    ∃ y, 0 + dispersionCell (fin (n : K)) (fun a => F.sum ((l a).map fun v => fin v * fin v)) (fun a => F.sum ((l a).map fin)) = fin y ∧
      |y - (sampleVar (l 0) + sampleVar (l 1) + sampleVar (l 2))| ≤
        n / 2 ^ 46 * (meanSquare (l 0) + meanSquare (l 1) + meanSquare (l 2)) + 1 / 2 ^ 1068 := by
  have hL : (2 : K) ^ 400 ≤ large K := by unfold large; exact pow_le_pow_right₀ (by norm_num) (by norm_num)
  have hne : ∀ a, l a ≠ [] := fun a => List.ne_nil_of_length_pos (by rw [hl a]; omega)
  have hfit := fun a => squares_fit (l a) (by rw [hl a]; exact hlen) fun v h => (hv a v h).2
  have hsc := fun a => part_accurate (l a) (hne a) (by rw [hl a]; exact hlen) (fun v h => ⟨(hv a v h).1, (hv a v h).2.trans hL⟩)
    (by
      have h0 : 0 ≤ ((l a).length : K) * ((l a).map fun v => v * v).sum := mul_nonneg (Nat.cast_nonneg _) (List.sum_nonneg (by
        intro x hx; obtain ⟨v, _, rfl⟩ := List.mem_map.1 hx; exact mul_self_nonneg v))
      have h1 : (0 : K) ≤ (l a).length := Nat.cast_nonneg _
      have := hfit a
      linarith)
  choose f hf1 hf3 using hsc
  have hu := roundoff_pos (K := K)
  have hu1 : 64 * roundoff K ≤ 1 := by
    unfold roundoff; rw [mul_one_div, div_le_one (by norm_num)]; norm_num
  have ht := tiny_pos (K := K)
  have ht1 := tiny_le_one (K := K)
  have hn2 : (2 : K) ≤ n := by exact_mod_cast hn
  have hn1 : (1 : K) ≤ n := by linarith
  have hn0 : (0 : K) < n := by linarith
  have hnu : 2 * ((n : K) * roundoff K) ≤ 1 := by
    have : (n : K) ≤ 2 ^ 52 := by exact_mod_cast hlen.le
    unfold roundoff
    rw [mul_one_div, ← mul_div_assoc, div_le_one (by norm_num)]
    have h2 : (2 : K) ^ 53 = 2 * 2 ^ 52 := by norm_num
    rw [h2]; linarith
  have usm : ∀ z, 0 ≤ z → 64 * (roundoff K * z) ≤ z := fun z hz => by
    rw [← mul_assoc]; exact mul_le_of_le_one_left hz hu1
  obtain ⟨E, hE⟩ : ∃ E : Fin 3 → K, ∀ a, ((l a).map fun v => v * v).sum = E a := ⟨_, fun _ => rfl⟩
  obtain ⟨V, hV⟩ : ∃ V : Fin 3 → K, ∀ a, V a = E a - (l a).sum * (l a).sum / n := ⟨_, fun _ => rfl⟩
  have hE0 : ∀ a, 0 ≤ E a := fun a => by
    rw [← hE a]
    exact List.sum_nonneg (by intro x hx; obtain ⟨v, _, rfl⟩ := List.mem_map.1 hx; exact mul_self_nonneg v)
  have hdev : ∀ a, meanSqDev (l a) = V a / n := fun a => by
    rw [← var_identity (l a) (hne a), hl a, hE a, hV a, sub_div]
  have hsv : ∀ a, sampleVar (l a) = V a / (n - 1) := fun a => by
    rw [sampleVar_eq (l a) (by rw [hl a]; exact hn), hl a, hdev a, div_mul_cancel₀ _ hn0.ne']
  have hV0 : ∀ a, 0 ≤ V a := fun a => by
    have h1 := meanSqDev_nonneg (l a)
    rw [hdev a] at h1
    have := mul_nonneg h1 hn0.le
    rwa [div_mul_cancel₀ _ hn0.ne'] at this
  have hVE : ∀ a, V a ≤ E a := fun a => by
    rw [hV a]
    have := div_nonneg (mul_self_nonneg (l a).sum) hn0.le
    linarith
  have hms : ∀ a, meanSquare (l a) = E a / n := fun a => by unfold meanSquare; rw [hE a, hl a]
  simp only [hl, hE] at hf1 hf3 hfit
  have hf3' : ∀ a, |n * f a - V a| ≤ 24 * (n * (roundoff K * E a)) + 14 * (n * tiny K) := fun a => by rw [hV a]; exact hf3 a
  have hXE : ∀ E : K, 0 ≤ E → 2 * (n * (roundoff K * E)) ≤ E := fun E h => by
    have : 2 * ((n : K) * (roundoff K * E)) = 2 * (n * roundoff K) * E := by ring
    rw [this]; exact mul_le_of_le_one_left h hnu
  have hEn : ∀ a, E a ≤ n * E a := fun a => le_mul_of_one_le_left (hE0 a) hn1
  -- the three parts together
  obtain ⟨X, hX⟩ : ∃ X, X = n * (roundoff K * (E 0 + E 1 + E 2)) := ⟨_, rfl⟩
  obtain ⟨Y, hY⟩ : ∃ Y, Y = n * tiny K := ⟨_, rfl⟩
  obtain ⟨W, hW⟩ : ∃ W, W = V 0 + V 1 + V 2 := ⟨_, rfl⟩
  obtain ⟨G, hG⟩ : ∃ G, G = E 0 + E 1 + E 2 := ⟨_, rfl⟩
  have b0 := hf3' 0; have b1 := hf3' 1; have b2 := hf3' 2
  have c0 := hE0 0; have c1 := hE0 1; have c2 := hE0 2
  have d0 := hV0 0; have d1 := hV0 1; have d2 := hV0 2
  have e0 := hVE 0; have e1 := hVE 1; have e2 := hVE 2
  have p0 := hfit 0; have p1 := hfit 1; have p2 := hfit 2
  have q0 := hEn 0; have q1 := hEn 1; have q2 := hEn 2
  rw [← hY] at b0 b1 b2
  rw [abs_le] at b0 b1 b2
  have hXs : X = n * (roundoff K * E 0) + n * (roundoff K * E 1) + n * (roundoff K * E 2) := by rw [hX]; ring
  have hX0 : 0 ≤ X := by rw [hX]; exact mul_nonneg hn0.le (mul_nonneg hu.le (by linarith))
  have hY0 : 0 ≤ Y := by rw [hY]; exact mul_nonneg hn0.le ht.le
  have htY : tiny K ≤ Y := by rw [hY]; exact le_mul_of_one_le_left ht.le hn1
  have hYn : Y ≤ n := by rw [hY]; exact mul_le_of_le_one_right hn0.le ht1
  have hGX : roundoff K * G ≤ X := by rw [hX, ← hG]; exact le_mul_of_one_le_left (mul_nonneg hu.le (by linarith)) hn1
  have hG0 : 0 ≤ G := by linarith
  have hXG : 2 * X ≤ G := by rw [hX, ← hG]; exact hXE G hG0
  have x0 : 0 ≤ n * (roundoff K * E 0) := mul_nonneg hn0.le (mul_nonneg hu.le c0)
  have x1 : 0 ≤ n * (roundoff K * E 1) := mul_nonneg hn0.le (mul_nonneg hu.le c1)
  have x2 : 0 ≤ n * (roundoff K * E 2) := mul_nonneg hn0.le (mul_nonneg hu.le c2)
  have uX := usm X hX0
  have uY := usm Y hY0
  have step : ∀ (x T k j : K), |n * x - T| ≤ k * X + j * Y → 0 ≤ T → T ≤ G → 0 ≤ k → k ≤ 60 → 0 ≤ j → j ≤ 100 →
      ∃ z, Arith.rnd x = fin z ∧ |n * z - T| ≤ (k + 2) * X + (j + 3) * Y := by
    intro x T k j h1 hT0 hT hk hk1 hj hj1
    have hkX : k * X ≤ 60 * X := mul_le_mul_of_nonneg_right hk1 hX0
    have hjY : j * Y ≤ 100 * Y := mul_le_mul_of_nonneg_right hj1 hY0
    have hnx : n * |x| ≤ G + k * X + j * Y := by
      have := abs_add_le (n * x - T) T
      rw [sub_add_cancel, abs_mul, abs_of_pos hn0, abs_of_nonneg hT0] at this
      linarith
    have hx : |x| ≤ huge K := by
      have := le_mul_of_one_le_left (abs_nonneg x) hn1
      linarith
    obtain ⟨z, hz⟩ := RoundedArith.rnd_finite x hx
    have hze := RoundedArith.rnd_err x z hz
    refine ⟨z, hz, ?_⟩
    have e : n * z - T = n * (z - x) + (n * x - T) := by ring
    rw [e]
    refine (abs_add_le _ _).trans ?_
    rw [abs_mul, abs_of_pos hn0]
    have g1 := mul_le_mul_of_nonneg_left hze hn0.le
    have g2 := mul_le_mul_of_nonneg_left hnx hu.le
    have e1 : n * (roundoff K * |x| + tiny K) = roundoff K * (n * |x|) + Y := by rw [hY]; ring
    have e3 : roundoff K * (G + k * X + j * Y) = roundoff K * G + k * (roundoff K * X) + j * (roundoff K * Y) := by ring
    have g4 : k * (roundoff K * X) ≤ 60 * (roundoff K * X) := mul_le_mul_of_nonneg_right hk1 (mul_nonneg hu.le hX0)
    have g5 : j * (roundoff K * Y) ≤ 100 * (roundoff K * Y) := mul_le_mul_of_nonneg_right hj1 (mul_nonneg hu.le hY0)
    rw [e1] at g1
    rw [e3] at g2
    have e4 : (k + 2) * X + (j + 3) * Y = k * X + 2 * X + (j * Y + 3 * Y) := by ring
    rw [e4]
    linarith
  obtain ⟨s1, hs1, hs1e⟩ := step (f 0 + f 1) (V 0 + V 1) 24 28
    (by rw [abs_le]; constructor <;> linarith) (by linarith) (by linarith) (by norm_num) (by norm_num) (by norm_num) (by norm_num)
  rw [abs_le] at hs1e
  obtain ⟨s2, hs2, hs2e⟩ := step (s1 + f 2) W 50 45
    (by rw [abs_le]; constructor <;> linarith) (by linarith) (by linarith) (by norm_num) (by norm_num) (by norm_num) (by norm_num)
  have hW0 : 0 ≤ W := by linarith
  have hWG : W ≤ G := by linarith
  have hs2b : |s2 * n| ≤ G + 52 * X + 48 * Y := by
    have := abs_add_le (n * s2 - W) W
    rw [sub_add_cancel, abs_of_nonneg hW0] at this
    rw [mul_comm s2]
    linarith
  obtain ⟨t, ht1', ht2⟩ := rnd_near (s2 * n) _ hs2b (by linarith)
  have eG : roundoff K * (G + 52 * X + 48 * Y) = roundoff K * G + 52 * (roundoff K * X) + 48 * (roundoff K * Y) := by ring
  rw [eG] at ht2
  have htW : |t - W| ≤ 54 * X + 50 * Y := by
    have := abs_add_le (t - s2 * n) (n * s2 - W)
    rw [show t - s2 * n + (n * s2 - W) = t - W by ring] at this
    linarith
  have hm1 : (1 : K) ≤ n - 1 := by linarith
  have hm0 : (0 : K) < n - 1 := by linarith
  have htb : |t| ≤ G + 54 * X + 50 * Y := by
    have := abs_add_le (t - W) W
    rw [sub_add_cancel, abs_of_nonneg hW0] at this
    linarith
  have hdb : |t / (n - 1)| ≤ (G + 54 * X + 50 * Y) / (n - 1) := by
    rw [abs_div, abs_of_pos hm0]; exact div_le_div_of_nonneg_right htb hm0.le
  have hle : (G + 54 * X + 50 * Y) / (n - 1) ≤ huge K := by
    rw [div_le_iff₀ hm0]
    have := le_mul_of_one_le_right (huge_pos (K := K)).le hm1
    linarith
  obtain ⟨r, hr1, hr2⟩ := rnd_near (t / (n - 1)) _ hdb hle
  refine ⟨r, ?_, ?_⟩
  · unfold dispersionCell
    dsimp only
    have hN1 : (fin (n : K) - 1 : F K) = fin (n - 1 : K) := by
      rw [F.one_def, F.sub_fin]
      have e : (n : K) - 1 = ((n - 1 : ℕ) : K) := by rw [Nat.cast_sub hn.le]; norm_num
      rw [e]
      exact F.rnd_nat _ (by omega)
    rw [hf1 0, hf1 1, hf1 2, F.add_fin, hs1, F.add_fin, hs2, F.mul_fin, ht1', hN1, F.div_fin_ne _ hm0.ne', hr1, F.zero_def, F.add_fin, zero_add]
    exact double_of_rnd hr1
  · rw [hsv, hsv, hsv, hms, hms, hms]
    have e1 : V 0 / (n - 1) + V 1 / (n - 1) + V 2 / (n - 1) = W / (n - 1) := by rw [hW]; ring
    have e2 : E 0 / (n : K) + E 1 / n + E 2 / n = G / n := by rw [hG]; ring
    rw [e1, e2]
    have k1 : (n - 1) * |r - W / (n - 1)| ≤ 56 * X + 54 * Y := by
      rw [← abs_of_pos hm0, ← abs_mul, abs_of_pos hm0]
      have e : (n - 1) * (r - W / (n - 1)) = (n - 1) * (r - t / (n - 1)) + (t - W) := by
        field_simp; ring
      rw [e]
      refine (abs_add_le _ _).trans ?_
      rw [abs_mul, abs_of_pos hm0]
      have h3 := mul_le_mul_of_nonneg_left hr2 hm0.le
      have e2 : (n - 1) * (roundoff K * ((G + 54 * X + 50 * Y) / (n - 1)) + tiny K) = roundoff K * (G + 54 * X + 50 * Y) + (n - 1) * tiny K := by
        field_simp
      rw [e2] at h3
      have e3 : roundoff K * (G + 54 * X + 50 * Y) = roundoff K * G + 54 * (roundoff K * X) + 50 * (roundoff K * Y) := by ring
      have h4 : (n - 1) * tiny K ≤ Y := by rw [hY]; exact mul_le_mul_of_nonneg_right (by linarith) ht.le
      linarith
    have k2 : |r - W / (n - 1)| * n ≤ 112 * X + 108 * Y := by
      have h0 := abs_nonneg (r - W / (n - 1))
      have : |r - W / (n - 1)| * n ≤ 2 * ((n - 1) * |r - W / (n - 1)|) := by
        have h5 := mul_le_mul_of_nonneg_left (show (n : K) ≤ 2 * (n - 1) by linarith) h0
        have e5 : 2 * ((n - 1) * |r - W / (n - 1)|) = |r - W / (n - 1)| * (2 * (n - 1)) := by ring
        rw [e5]; exact h5
      linarith
    have hB : n / 2 ^ 46 * (G / n) + 1 / 2 ^ 1068 = (128 * X + 128 * Y) / n := by
      rw [hX, hY, ← hG]
      have e1 : roundoff K = 1 / (2 ^ 46 * 128) := by unfold roundoff; norm_num
      have e2 : tiny K = 1 / (2 ^ 1068 * 128) := by
        unfold tiny
        rw [show (128 : K) = 2 ^ 7 by norm_num, ← pow_add]
      rw [e1, e2]
      have : (2 : K) ^ 1068 ≠ 0 := by positivity
      generalize (2 : K) ^ 1068 = q at this
      have : (2 : K) ^ 46 ≠ 0 := by positivity
      generalize (2 : K) ^ 46 = q at this
      field_simp
    rw [hB, le_div_iff₀ hn0]
    linarith

/-- **C109.** Dispersion in rounded arithmetic, on a grid without contents: a cell in which `n > 1` samples start holds the sum over the three axes of the
unbiased sample variance of their later positions, up to `n·2^-46` of the mean square of the positions (and `2^-1068`); a cell with fewer holds 0. The error can make
the value negative (`C109_negative`). -/
theorem C109_dispersion [LawfulArith K] [RoundedArith K] (p : Profile) (d : Dm (Timestep K)) (hd : d.CanLook) (st : Stats K) (τ : ℕ → K)
    (hc : Clocked st d.file d.n τ) (grid : Grid K) (hg : grid.Fillable p) (hfresh : ∀ c, grid.st.data.get c = 0)
    (sel : Selector K) (hs : sel.Usable)
    (hw : ∀ t, t < d.n → (d.file t).Wf) (np : ℕ) (hnp : ∀ t, t < d.n → (d.file t).position.length = np) (δ : K)
    (hlen : (d.leads p sel st (fin δ) (List.range d.n)).length < 2 ^ 52) (w : ℕ × ℕ × ℕ → Fin 3 → K)
    (hfin : ∀ x ∈ d.leads p sel st (fin δ) (List.range d.n), ∀ a, endOf d.file x a = fin (w x a) ∧ IsDouble (w x a) ∧ |w x a| ≤ 2 ^ 400) :
    ∃ d' g' m, dispersion p d st grid sel (fin δ) = .ok (d', g', m) ∧ ∀ c, InB grid.geom.cells c →
      let S := (d.leads p sel st (fin δ) (List.range d.n)).filter fun x => inCell p grid.geom (startOf d.file x) c
      let l := fun a => S.map fun x => w x a
      (S.length ≤ 1 → g'.st.data.get c = 0) ∧
      (1 < S.length → ∃ y, g'.st.data.get c = fin y ∧ |y - (sampleVar (l 0) + sampleVar (l 1) + sampleVar (l 2))| ≤
        S.length / 2 ^ 46 * (meanSquare (l 0) + meanSquare (l 1) + meanSquare (l 2)) + 1 / 2 ^ 1068) := by
  obtain ⟨d', g', m, h1, _, _, _, _, _, _, h6⟩ := dispersion_run p d hd st τ hc grid hg sel hs hw np hnp δ
  refine ⟨d', g', m, h1, fun c hcb => ?_⟩
  intro S l
  obtain ⟨k1, _⟩ := h6 c hcb
  rw [hfresh c] at k1
  have hlenS : S.length < 2 ^ 52 := lt_of_le_of_lt (List.length_filter_le _ _) hlen
  have hN : (List.replicate S.length (1 : F K)).foldl (· + ·) 0 = fin (S.length : K) := by
    have h0 := foldl_ones (K := K) 0 S.length (by omega)
    rw [Nat.cast_zero, Nat.zero_add] at h0
    rw [← h0]; rfl
  have hS : ∀ x ∈ S, ∀ a, endOf d.file x a = fin (w x a) ∧ IsDouble (w x a) ∧ |w x a| ≤ 2 ^ 400 :=
    fun x hx => hfin x (List.mem_filter.1 hx).1
  have hM : ∀ a, (S.map fun x => endOf d.file x a).foldl (· + ·) 0 = F.sum ((l a).map fin) := by
    intro a
    rw [map_fin S _ (fun x => w x a) (fun x hx => (hS x hx a).1)]
    rfl
  have hQ : ∀ a, (S.map fun x => endOf d.file x a * endOf d.file x a).foldl (· + ·) 0 = F.sum ((l a).map fun y => fin y * fin y) := by
    intro a
    change _ = F.sum ((S.map fun x => w x a).map fun y => fin y * fin y)
    rw [List.map_map]
    change _ = List.foldl _ 0 _
    congr 1
    exact List.map_congr_left fun x hx => by rw [(hS x hx a).1]; rfl
  change g'.st.data.get c = (if (List.replicate S.length (1 : F K)).foldl (· + ·) 0 > 1 then
      0 + dispersionCell ((List.replicate S.length (1 : F K)).foldl (· + ·) 0)
        (fun a => (S.map fun x => endOf d.file x a * endOf d.file x a).foldl (· + ·) 0)
        (fun a => (S.map fun x => endOf d.file x a).foldl (· + ·) 0) else 0) at k1
  simp only [hN, hM, hQ] at k1
  refine ⟨fun hle => ?_, fun hlt => ?_⟩
  · have hgt : ¬ (fin (S.length : K) : F K) > 1 := by
      change ¬ fin 1 < fin _
      rw [F.lt_fin, not_lt]; exact_mod_cast hle
    rw [if_neg hgt] at k1
    exact k1
  · have hgt : (fin (S.length : K) : F K) > 1 := by
      change fin 1 < fin _
      rw [F.lt_fin]; exact_mod_cast hlt
    rw [if_pos hgt] at k1
    rw [k1]
    exact spread_accurate S.length hlt hlenS l (fun a => List.length_map _) (by
      intro a y hy
      obtain ⟨x, hx, rfl⟩ := List.mem_map.1 hy
      exact (hS x hx a).2)

theorem meanSquare_thrice (x : K) : meanSquare [x, x, x] = x * x := by
  unfold meanSquare
  simp only [List.map_cons, List.map_nil, List.sum_cons, List.sum_nil, List.length_cons, List.length_nil]
  push_cast
  ring

namespace B64

theorem heat6 : rnd (163480666473549 / 1125899906842624 / 3) = F.fin (54493555491183 / 1125899906842624) := by
  rw [show (163480666473549 / 1125899906842624 / 3 : ℝ) = 54493555491183 / 1125899906842624 by norm_num]
  rw [rnd_eq (m := 6975175102871424) (k := -57) (by norm_num) (by norm_num) (by norm_num)
    (by norm_num) (by norm_num) (by rw [abs_lt]; constructor <;> norm_num)]
  norm_num
theorem heat7 : rnd (5231381327153569 / 36028797018963968 / 3) = F.fin (6975175102871425 / 144115188075855872) := by
  rw [rnd_eq (m := 6975175102871425) (k := -57) (by norm_num) (by norm_num) (by norm_num)
    (by norm_num) (by norm_num) (by rw [abs_lt]; constructor <;> norm_num)]
  norm_num
theorem heat6' : Arith.rnd (163480666473549 / 1125899906842624 / 3 : B64) = F.fin (54493555491183 / 1125899906842624) := heat6
theorem heat7' : Arith.rnd (5231381327153569 / 36028797018963968 / 3 : B64) = F.fin (6975175102871425 / 144115188075855872) := heat7

theorem rnd_negated (x : B64) (h : Arith.rnd x = F.fin x) : Arith.rnd (-x) = F.fin (-x) := by
  have e : Arith.rnd (-x) = F.neg (Arith.rnd x) := rnd_neg x
  rw [e, h]; rfl

/-- Negative dyadic numbers are doubles. -/
theorem vneg {x : B64} (m : ℕ) (k : ℕ) (hm : m ≤ 2 ^ 53) (hk : k ≤ 1000) (h : x = -((m : B64) / 2 ^ k)) : Arith.rnd x = F.fin x := by
  rw [h]; exact rnd_negated _ (LawfulArith.rnd_dyadic (K := B64) m k hm hk)

theorem v22_double : IsDouble v22 := double_of_rnd v22_eq

end B64

/-- Three later positions `(0.22, 0, 0)` give the dispersion `-3/2^58`. -/
theorem cell_negative : 0 + dispersionCell (fin 3 : F B64)
    ![F.sum [fin B64.v22 * fin B64.v22, fin B64.v22 * fin B64.v22, fin B64.v22 * fin B64.v22], fin 0, fin 0]
    ![F.sum [fin B64.v22, fin B64.v22, fin B64.v22], fin 0, fin 0] = fin (-(3 / 2 ^ 58)) := by
  have hq : (fin B64.v22 * fin B64.v22 : F B64) = fin (54493555491183 / 1125899906842624) := B64.heat1'
  have hQ : F.sum [(fin (54493555491183 / 1125899906842624) : F B64), fin (54493555491183 / 1125899906842624), fin (54493555491183 / 1125899906842624)] = fin (163480666473549 / 1125899906842624) := by
    unfold F.sum
    simp only [List.foldl_cons, List.foldl_nil]
    rw [F.zero_def, F.add_fin, zero_add, B64.val 54493555491183 50 (by norm_num) (by norm_num) (by norm_num), F.add_fin,
      B64.val 54493555491183 49 (by norm_num) (by norm_num) (by norm_num),
      show (54493555491183 / 1125899906842624 + 54493555491183 / 1125899906842624 : B64) = 54493555491183 / 562949953421312 by norm_num,
      F.add_fin, B64.heat2']
  have hM : F.sum [(fin B64.v22 : F B64), fin B64.v22, fin B64.v22] = fin (5944751508129055 / 9007199254740992) := by
    unfold F.sum B64.v22
    simp only [List.foldl_cons, List.foldl_nil]
    rw [F.zero_def, F.add_fin, zero_add, B64.val 7926335344172073 55 (by norm_num) (by norm_num) (by norm_num), F.add_fin,
      B64.val 7926335344172073 54 (by norm_num) (by norm_num) (by norm_num),
      show (7926335344172073 / 36028797018963968 + 7926335344172073 / 36028797018963968 : B64) = 7926335344172073 / 18014398509481984 by norm_num,
      F.add_fin, B64.heat3']
  have hz : (fin 0 / fin 3 - fin 0 * fin 0 / fin 3 / fin 3 : F B64) = fin 0 := by
    simp [F.mul_fin, F.sub_fin, F.div_fin_ne]
  have h3 : (3 : B64) ≠ 0 := by norm_num
  have hp : (F.sum [fin B64.v22 * fin B64.v22, fin B64.v22 * fin B64.v22, fin B64.v22 * fin B64.v22] / fin 3 -
      F.sum [fin B64.v22, fin B64.v22, fin B64.v22] * F.sum [fin B64.v22, fin B64.v22, fin B64.v22] / fin 3 / fin 3 : F B64) = fin (-(1 / 2 ^ 57)) := by
    rw [hq, hQ, hM, F.div_fin_ne _ h3, B64.heat6', F.mul_fin, B64.heat4', F.div_fin_ne _ h3, B64.heat5', F.div_fin_ne _ h3, B64.heat7', F.sub_fin,
      show (54493555491183 / 1125899906842624 - 6975175102871425 / 144115188075855872 : B64) = -(1 / 2 ^ 57) by norm_num]
    exact B64.vneg 1 57 (by norm_num) (by norm_num) (by norm_num)
  unfold dispersionCell
  dsimp only
  simp only [Matrix.cons_val]
  rw [hp, hz]
  have a1 : (fin (-(1 / 2 ^ 57)) + fin 0 : F B64) = fin (-(1 / 2 ^ 57)) := by
    rw [F.add_fin, add_zero]; exact B64.vneg 1 57 (by norm_num) (by norm_num) (by norm_num)
  have a2 : (fin 3 - 1 : F B64) = fin 2 := by
    rw [F.one_def, F.sub_fin, show (3 - 1 : B64) = 2 by norm_num]; exact B64.val 2 0 (by norm_num) (by norm_num) (by norm_num)
  rw [a1, a1, a2, F.mul_fin, B64.vneg 3 57 (by norm_num) (by norm_num) (by norm_num), F.div_fin_ne _ (by norm_num),
    B64.vneg 3 58 (by norm_num) (by norm_num) (by norm_num), F.zero_def, F.add_fin, zero_add, B64.vneg 3 58 (by norm_num) (by norm_num) (by norm_num)]
  congr 1
  norm_num

/-- Three particles start at the origin and are, one second later, all at `(0.22, 0, 0)`. -/
noncomputable def together (t : ℕ) : Timestep B64 :=
  ⟨fin t, if t = 0 then [fun _ => fin 0, fun _ => fin 0, fun _ => fin 0]
    else [![fin B64.v22, fin 0, fin 0], ![fin B64.v22, fin 0, fin 0], ![fin B64.v22, fin 0, fin 0]],
    [![fin 0, fin 0, fin 0], ![fin 0, fin 0, fin 0], ![fin 0, fin 0, fin 0]],
    [fin 1, fin 1, fin 1], [fin 1, fin 2, fin 3], [fin 0, fin 0, fin 0], [fin 0, fin 0, fin 0], [fin 0, fin 0, fin 0]⟩

noncomputable def togetherStats : Stats B64 := ⟨fun _ => (fin 0, fin 2), 1, timesOf (fun i => (i : B64)) 2, ![fin 5, fin 5, fin 5]⟩

theorem together_clocked : Clocked togetherStats together 2 (fun i => (i : B64)) :=
  ⟨rfl, fun _ _ => rfl, fun i j h _ => by exact_mod_cast h⟩

theorem together_leads (p : Profile) :
    leads Selector.default together (partner p togetherStats.times together (fin 1)) (List.range 2) = [(0, 0, 1), (0, 1, 1), (0, 2, 1)] := by
  have h0 : (fin ((0 : ℕ) : B64) + fin 1 : F B64) = fin ((1 : ℕ) : B64) := by
    rw [F.add_fin, show (((0 : ℕ) : B64) + 1) = ((1 : ℕ) : B64) by norm_num, F.rnd_nat 1 (by norm_num)]
  have h1 : (fin ((1 : ℕ) : B64) + fin 1 : F B64) = fin ((2 : ℕ) : B64) := by
    rw [F.add_fin, show (((1 : ℕ) : B64) + 1) = ((2 : ℕ) : B64) by norm_num, F.rnd_nat 2 (by norm_num)]
  have p0 : partner p togetherStats.times together (fin 1) 0 = some 1 := by
    have := C33_recorded_partial p (fun i : ℕ => (i : B64)) 2 1 (by norm_num) (by norm_num) (fun i j h _ => by exact_mod_cast h) (by
      intro i hi hne
      obtain rfl : i = 0 := by omega
      have e : (fin ((0 : ℕ) : B64) - fin ((1 : ℕ) : B64) : F B64) = fin (-1) := by
        rw [F.sub_fin, show (((0 : ℕ) : B64) - ((1 : ℕ) : B64)) = -1 by norm_num]
        exact B64.vneg 1 0 (by norm_num) (by norm_num) (by norm_num)
      rw [e]
      change ¬ (fin |(-1 : B64)| : F B64) < Arith.rnd (1 / 100 : B64)
      have hm := LawfulArith.rnd_mono (K := B64) (1 / 100) 1 (by norm_num)
      rw [F.rnd_one] at hm
      rw [abs_neg, abs_one]
      exact F.not_lt_of_le' hm)
    unfold partner
    change (match closest p (timesOf (fun i => (i : B64)) 2) (fin ((0 : ℕ) : B64) + fin 1) with | .ok r => r | .error _ => none) = _
    rw [h0, this]
  have p1 : partner p togetherStats.times together (fin 1) 1 = none := by
    unfold partner
    change (match closest p (timesOf (fun i => (i : B64)) 2) (fin ((1 : ℕ) : B64) + fin 1) with | .ok r => r | .error _ => none) = _
    rw [h1]
    unfold closest
    rw [timesOf_length, usub_ok p (by omega) (by norm_num), run_bind_ok, timesOf_at _ (by omega), run_bind_ok, if_pos (by
      rw [F.lt_fin]; norm_num)]
    rfl
  have ht : (together 0).picks Selector.default = [0, 1, 2] := by
    have : (Selector.default : Selector B64).timestepValid (together 0).time = true := by
      have := one_time (K := B64)
      unfold together oneStep at *
      simpa using this
    unfold Timestep.picks
    rw [if_pos this]
    simp [together, chosen_default, List.range_succ]
  rw [show List.range 2 = [0, 1] by rfl]
  unfold leads
  simp [p0, p1, ht]

/-- **The error can make a dispersion negative in binary64.** Three particles start in one cell and are one second later all in one place, `(0.22, 0, 0)`: they
did not disperse, and the value is `-3/2^58`. -/
theorem C109_negative (p : Profile) : ∃ d : Dm (Timestep B64), Dm.new p .tdata together 2 Timestep.default = .ok d ∧
    (d.leads p Selector.default togetherStats (fin 1) (List.range d.n)).filter
      (fun x => inCell p (unitGrid (K := B64)).geom (startOf d.file x) fun _ => 0) = [(0, 0, 1), (0, 1, 1), (0, 2, 1)] ∧
    (∀ i < 3, endOf d.file (0, i, 1) = ![fin B64.v22, fin 0, fin 0]) ∧
    ∃ d' g' m, dispersion p d togetherStats unitGrid Selector.default (fin 1) = .ok (d', g', m) ∧
      g'.st.data.get (fun _ => 0) = fin (-(3 / 2 ^ 58)) := by
  obtain ⟨d, e, hd, hf, hn⟩ := Dm.canLook_new p .tdata together 2 Timestep.default (by norm_num) (by norm_num) (Or.inl rfl)
  have hl : d.leads p Selector.default togetherStats (fin 1) (List.range d.n) = [(0, 0, 1), (0, 1, 1), (0, 2, 1)] := by
    unfold Dm.leads
    rw [hf, hn]
    exact together_leads p
  have hpos : ∀ i < 3, startOf d.file (0, i, 1) = posOf (fun _ => oneStep (K := B64)) (0, 0) := by
    intro i hi
    rw [hf]
    interval_cases i <;> rfl
  have hend : ∀ i < 3, endOf d.file (0, i, 1) = ![fin B64.v22, fin 0, fin 0] := by
    intro i hi
    rw [hf]
    interval_cases i <;> rfl
  have hS : (d.leads p Selector.default togetherStats (fin 1) (List.range d.n)).filter
      (fun x => inCell p (unitGrid (K := B64)).geom (startOf d.file x) fun _ => 0) = [(0, 0, 1), (0, 1, 1), (0, 2, 1)] := by
    rw [hl, List.filter_eq_self]
    intro x hx
    simp only [List.mem_cons, List.not_mem_nil, or_false] at hx
    rcases hx with rfl | rfl | rfl <;> rw [hpos _ (by norm_num)] <;> exact unit_lookup p
  refine ⟨d, e, hS, hend, ?_⟩
  obtain ⟨d', g', m, h1, _, _, _, _, _, _, h6⟩ := dispersion_run p d hd togetherStats _ (by rw [hf, hn]; exact together_clocked) unitGrid
    (fillable_cart p _ unit_isCart) Selector.default usable_default
    (fun t _ => by rw [hf]; by_cases h : t = 0 <;> exact ⟨by simp [together, h], by simp [together, h], by simp [together, h], by simp [together, h], by simp [together, h], by simp [together, h]⟩)
    3 (fun t _ => by rw [hf]; by_cases h : t = 0 <;> simp [together, h]) 1
  refine ⟨d', g', m, h1, ?_⟩
  obtain ⟨k1, _⟩ := h6 (fun _ => 0) (fun a => by simp [unitGrid, Grid.newCart, CartGeom.new, Geom.cells])
  have hz : (unitGrid (K := B64)).st.data.get (fun _ => 0) = 0 := rfl
  rw [hS, hz] at k1
  have hN : (List.replicate [((0 : ℕ), (0 : ℕ), (1 : ℕ)), (0, 1, 1), (0, 2, 1)].length (1 : F B64)).foldl (· + ·) 0 = fin 3 := by
    have h0 := foldl_ones (K := B64) 0 3 (by norm_num)
    rw [Nat.cast_zero, Nat.zero_add] at h0
    have e3 : ((3 : ℕ) : B64) = 3 := by norm_num
    rw [e3] at h0
    exact h0
  rw [hN, if_pos (by change (fin 1 : F B64) < fin 3; rw [F.lt_fin]; norm_num)] at k1
  rw [k1, ← cell_negative]
  have c0 : ∀ i < 3, endOf d.file (0, i, 1) 0 = fin B64.v22 := fun i hi => by rw [hend i hi]; rfl
  have c1 : ∀ i < 3, endOf d.file (0, i, 1) 1 = fin 0 := fun i hi => by rw [hend i hi]; rfl
  have c2 : ∀ i < 3, endOf d.file (0, i, 1) 2 = fin 0 := fun i hi => by rw [hend i hi]; rfl
  congr 2
  · funext a
    simp only [List.map_cons, List.map_nil]
    fin_cases a
    · change List.foldl _ _ [endOf d.file (0, 0, 1) 0 * endOf d.file (0, 0, 1) 0, endOf d.file (0, 1, 1) 0 * endOf d.file (0, 1, 1) 0, endOf d.file (0, 2, 1) 0 * endOf d.file (0, 2, 1) 0] = _
      rw [c0 0 (by norm_num), c0 1 (by norm_num), c0 2 (by norm_num)]
      rfl
    · change List.foldl _ _ [endOf d.file (0, 0, 1) 1 * endOf d.file (0, 0, 1) 1, endOf d.file (0, 1, 1) 1 * endOf d.file (0, 1, 1) 1, endOf d.file (0, 2, 1) 1 * endOf d.file (0, 2, 1) 1] = fin 0
      rw [c1 0 (by norm_num), c1 1 (by norm_num), c1 2 (by norm_num)]
      simp [F.mul_fin, F.zero_def, F.add_fin]
    · change List.foldl _ _ [endOf d.file (0, 0, 1) 2 * endOf d.file (0, 0, 1) 2, endOf d.file (0, 1, 1) 2 * endOf d.file (0, 1, 1) 2, endOf d.file (0, 2, 1) 2 * endOf d.file (0, 2, 1) 2] = fin 0
      rw [c2 0 (by norm_num), c2 1 (by norm_num), c2 2 (by norm_num)]
      simp [F.mul_fin, F.zero_def, F.add_fin]
  · funext a
    simp only [List.map_cons, List.map_nil]
    fin_cases a
    · change List.foldl _ _ [endOf d.file (0, 0, 1) 0, endOf d.file (0, 1, 1) 0, endOf d.file (0, 2, 1) 0] = _
      rw [c0 0 (by norm_num), c0 1 (by norm_num), c0 2 (by norm_num)]
      rfl
    · change List.foldl _ _ [endOf d.file (0, 0, 1) 1, endOf d.file (0, 1, 1) 1, endOf d.file (0, 2, 1) 1] = fin 0
      rw [c1 0 (by norm_num), c1 1 (by norm_num), c1 2 (by norm_num)]
      simp [F.zero_def, F.add_fin]
    · change List.foldl _ _ [endOf d.file (0, 0, 1) 2, endOf d.file (0, 1, 1) 2, endOf d.file (0, 2, 1) 2] = fin 0
      rw [c2 0 (by norm_num), c2 1 (by norm_num), c2 2 (by norm_num)]
      simp [F.zero_def, F.add_fin]

/-- Witness for C109: the same dataset; the later positions are doubles below the bound, and the value found is near 0. -/
example (p : Profile) : ∃ (d d' : Dm (Timestep B64)) (g' : Grid B64) (m : F B64) (y : B64), Dm.new p .tdata together 2 Timestep.default = .ok d ∧
    dispersion p d togetherStats unitGrid Selector.default (fin 1) = .ok (d', g', m) ∧ g'.st.data.get (fun _ => 0) = fin y ∧
    |y - sampleVar [B64.v22, B64.v22, B64.v22]| ≤ 3 / 2 ^ 46 * (B64.v22 * B64.v22) + 1 / 2 ^ 1068 := by
  obtain ⟨d, e, hS, hend, _⟩ := C109_negative p
  obtain ⟨d2, e2, hd, hf, hn⟩ := Dm.canLook_new p .tdata together 2 Timestep.default (by norm_num) (by norm_num) (Or.inl rfl)
  obtain rfl : d = d2 := Except.ok.inj (e.symm.trans e2)
  have hl : d.leads p Selector.default togetherStats (fin 1) (List.range d.n) = [(0, 0, 1), (0, 1, 1), (0, 2, 1)] := by
    unfold Dm.leads
    rw [hf, hn]
    exact together_leads p
  obtain ⟨d', g', m, h1, h2⟩ := C109_dispersion p d hd togetherStats _ (by rw [hf, hn]; exact together_clocked) unitGrid
    (fillable_cart p _ unit_isCart) (fun _ => rfl) Selector.default usable_default
    (fun t _ => by rw [hf]; by_cases h : t = 0 <;> exact ⟨by simp [together, h], by simp [together, h], by simp [together, h], by simp [together, h], by simp [together, h], by simp [together, h]⟩)
    3 (fun t _ => by rw [hf]; by_cases h : t = 0 <;> simp [together, h]) 1 (by rw [hl]; norm_num) (fun _ => ![B64.v22, 0, 0])
    (by
      have hv : IsDouble B64.v22 ∧ |B64.v22| ≤ 2 ^ 400 := ⟨B64.v22_double, by
        have : (1 : B64) ≤ 2 ^ 400 := one_le_pow₀ (by norm_num)
        unfold B64.v22
        rw [abs_of_pos (by norm_num)]
        refine le_trans ?_ this
        norm_num⟩
      have hz : IsDouble (0 : B64) ∧ |(0 : B64)| ≤ 2 ^ 400 := ⟨F.rnd_zero, by rw [abs_zero]; exact pow_nonneg (by norm_num) _⟩
      intro x hx a
      rw [hl] at hx
      simp only [List.mem_cons, List.not_mem_nil, or_false] at hx
      rcases hx with rfl | rfl | rfl <;> rw [hend _ (by norm_num)] <;> fin_cases a <;> first | exact ⟨rfl, hv⟩ | exact ⟨rfl, hz⟩)
  obtain ⟨_, k2⟩ := h2 (fun _ => 0) (fun a => by simp [unitGrid, Grid.newCart, CartGeom.new, Geom.cells])
  dsimp only at k2
  rw [hS] at k2
  obtain ⟨y, y1, y2⟩ := k2 (by norm_num)
  refine ⟨d, d', g', m, y, e, h1, y1, ?_⟩
  have z1 : sampleVar [(0 : B64), 0, 0] = 0 := by simp [sampleVar, mean]
  have z2 : meanSquare [(0 : B64), 0, 0] = 0 := by simp [meanSquare]
  have z3 : meanSquare [B64.v22, B64.v22, B64.v22] = B64.v22 * B64.v22 := meanSquare_thrice _
  simp only [List.map_cons, List.map_nil, List.length_cons, List.length_nil, Matrix.cons_val] at y2
  rw [z1, z2, z3] at y2
  norm_num at y2 ⊢
  exact y2

end Up4
