import Verif.Proofs.Variance
import Verif.Props.Granular
import Verif.Props.Accuracy
import Verif.Props.UsedGrid
import Verif.Props.CylBinary64

set_option linter.unusedSectionVars false

/-!
# C108: the granular temperature in binary64
-/

namespace Up4
open F

variable {K : Type} [Field K] [LinearOrder K] [IsStrictOrderedRing K] [FloorRing K] [Arith K]

/-- The mean of the squares. -/
def meanSquare (l : List K) : K := (l.map fun v => v * v).sum / l.length

/-- The mean square velocity of one component, or the average of the three. -/
def energy (mode : String) (v : Fin 3 → List K) : K :=
  if mode = "x" then meanSquare (v 0)
  else if mode = "y" then meanSquare (v 1)
  else if mode = "z" then meanSquare (v 2)
  else (meanSquare (v 0) + meanSquare (v 1) + meanSquare (v 2)) / 3

theorem sum_squares_le (l : List K) (h : ∀ v ∈ l, |v| ≤ 2 ^ 400) : (l.map fun v => v * v).sum ≤ l.length * 2 ^ 800 := by
  induction l with
  | nil => simp
  | cons a l ih =>
    have h1 := ih fun x hx => h x (by simp [hx])
    have h2 := h a (by simp)
    have h3 : a * a ≤ 2 ^ 800 := by
      rw [← abs_mul_abs_self a]
      have := mul_le_mul h2 h2 (abs_nonneg a) (by positivity)
      rwa [← pow_add] at this
    simp only [List.map_cons, List.sum_cons, List.length_cons, Nat.cast_add, Nat.cast_one]
    rw [add_mul, one_mul]
    linarith

theorem squares_fit (l : List K) (hlen : l.length < 2 ^ 52) (h : ∀ v ∈ l, |v| ≤ 2 ^ 400) :
    256 * (l.length * (l.map fun v => v * v).sum) + 256 * l.length ≤ huge K := by
  have hn : (l.length : K) ≤ 2 ^ 52 := by exact_mod_cast hlen.le
  have hn0 : (0 : K) ≤ l.length := Nat.cast_nonneg _
  have h1 := sum_squares_le l h
  have h2 : (l.length : K) * (l.map fun v => v * v).sum ≤ 2 ^ 52 * (2 ^ 52 * 2 ^ 800) := by
    refine (mul_le_mul_of_nonneg_left h1 hn0).trans ?_
    have h3 : (l.length : K) * 2 ^ 800 ≤ 2 ^ 52 * 2 ^ 800 := mul_le_mul_of_nonneg_right hn (by positivity)
    exact mul_le_mul hn h3 (by positivity) (by positivity)
  have e : (2 : K) ^ 52 * (2 ^ 52 * 2 ^ 800) = 2 ^ 904 := by rw [← pow_add, ← pow_add]
  rw [e] at h2
  have h4 : (2 : K) ^ 52 ≤ 2 ^ 904 := pow_le_pow_right₀ (by norm_num) (by norm_num)
  have h5 : huge K = 2 ^ 904 * 2 ^ 119 := by unfold huge; rw [← pow_add]
  have h6 : (2 : K) ^ 904 * 512 ≤ 2 ^ 904 * 2 ^ 119 := mul_le_mul_of_nonneg_left (by norm_num) (by positivity)
  have h7 := hn.trans h4
  rw [h5]
  clear h5 h1 hn e
  generalize (2 : K) ^ 904 = q at *
  generalize (2 : K) ^ 119 = r at *
  linarith

/-- What `granular_temperature_field` computes from the velocities of one cell. -/
theorem temperature_accurate [LawfulArith K] [RoundedArith K] (mode : String) (n : ℕ) (hn : 0 < n) (hlen : n < 2 ^ 52) (l : Fin 3 → List K)
    (hl : ∀ a, (l a).length = n) (hv : ∀ a, ∀ v ∈ l a, IsDouble v ∧ |v| ≤ 2 ^ 400) :
    let fl := fun a => F.sum ((l a).map fun v => fin v * fin v) - F.sum ((l a).map fin) * F.sum ((l a).map fin) / fin (n : K)
    let T := (modeValue mode (fl 0) (fl 1) (fl 2) / fin (n : K)).sqrt
    let B := (n : K) / 2 ^ 47 * energy mode l + 1 / 2 ^ 1069
    (T = F.nan ∧ fluctuation mode l ≤ B) ∨ (∃ y, T = fin y ∧ 0 ≤ y ∧ |y * y - fluctuation mode l| ≤ B) := by
  intro fl T B
  have hL : (2 : K) ^ 400 ≤ large K := by unfold large; exact pow_le_pow_right₀ (by norm_num) (by norm_num)
  have hne : ∀ a, l a ≠ [] := fun a => List.ne_nil_of_length_pos (by rw [hl a]; exact hn)
  have hfit := fun a => squares_fit (l a) (by rw [hl a]; exact hlen) fun v h => (hv a v h).2
  have hsc := fun a => scatter_accurate (l a) (hne a) (by rw [hl a]; exact hlen) (fun v h => ⟨(hv a v h).1, (hv a v h).2.trans hL⟩)
    (by
      have h0 : 0 ≤ ((l a).length : K) * ((l a).map fun v => v * v).sum := mul_nonneg (Nat.cast_nonneg _) (List.sum_nonneg (by
        intro x hx; obtain ⟨v, _, rfl⟩ := List.mem_map.1 hx; exact mul_self_nonneg v))
      have h1 : (0 : K) ≤ (l a).length := Nat.cast_nonneg _
      have := hfit a
      linarith)
  choose f hf1 hf2 hf3 using hsc
  have hu := roundoff_pos (K := K)
  have hu1 : 64 * roundoff K ≤ 1 := by
    unfold roundoff; rw [mul_one_div, div_le_one (by norm_num)]; norm_num
  have ht := tiny_pos (K := K)
  have ht1 := tiny_le_one (K := K)
  have hn1 : (1 : K) ≤ n := by exact_mod_cast hn
  have hn0 : (0 : K) < n := by linarith
  have hnu : 2 * ((n : K) * roundoff K) ≤ 1 := by
    have : (n : K) ≤ 2 ^ 52 := by exact_mod_cast hlen.le
    unfold roundoff
    rw [mul_one_div, ← mul_div_assoc, div_le_one (by norm_num)]
    have h2 : (2 : K) ^ 53 = 2 * 2 ^ 52 := by norm_num
    rw [h2]; linarith
  obtain ⟨E, hE⟩ : ∃ E : Fin 3 → K, ∀ a, ((l a).map fun v => v * v).sum = E a := ⟨_, fun _ => rfl⟩
  obtain ⟨V, hV⟩ : ∃ V : Fin 3 → K, ∀ a, V a = E a - (l a).sum * (l a).sum / n := ⟨_, fun _ => rfl⟩
  have hE0 : ∀ a, 0 ≤ E a := fun a => by
    rw [← hE a]
    exact List.sum_nonneg (by intro x hx; obtain ⟨v, _, rfl⟩ := List.mem_map.1 hx; exact mul_self_nonneg v)
  have hdev : ∀ a, meanSqDev (l a) = V a / n := fun a => by
    rw [← var_identity (l a) (hne a), hl a, hE a, hV a, sub_div]
  have hV0 : ∀ a, 0 ≤ V a := fun a => by
    have h1 := meanSqDev_nonneg (l a)
    rw [hdev a] at h1
    have := mul_nonneg h1 hn0.le
    rwa [div_mul_cancel₀ _ hn0.ne'] at this
  have hVE : ∀ a, V a ≤ E a := fun a => by
    rw [hV a]
    have := div_nonneg (mul_self_nonneg (l a).sum) hn0.le
    linarith
  have hms : ∀ a, meanSquare (l a) = E a / n := fun a => by unfold meanSquare; rw [hE a, hl a]
  simp only [hl, hE] at hf1 hf3 hfit
  have hf3' : ∀ a, |f a - V a| ≤ 18 * (n * (roundoff K * E a)) + 7 * (n * tiny K) := fun a => by rw [hV a]; exact hf3 a
  have hXE : ∀ E : K, 0 ≤ E → 2 * (n * (roundoff K * E)) ≤ E := fun E h => by
    have : 2 * ((n : K) * (roundoff K * E)) = 2 * (n * roundoff K) * E := by ring
    rw [this]; exact mul_le_of_le_one_left h hnu
  have hY1 : (n : K) * tiny K ≤ n := mul_le_of_le_one_right hn0.le ht1
  have hY0 : 0 ≤ (n : K) * tiny K := mul_nonneg hn0.le ht.le
  -- one number g close to V, with bound E
  have finish : ∀ g V E c k : K, 0 ≤ E → 0 ≤ V → V ≤ E → 0 ≤ c → c ≤ 38 → 0 ≤ k → k ≤ 38 → 256 * E + 256 * n ≤ 2 * huge K →
      |g - V| ≤ c * (n * (roundoff K * E)) + k * (n * tiny K) →
      ((fin g / fin (n : K) : F K).sqrt = F.nan ∧ V / n ≤ n / 2 ^ 47 * (E / n) + 1 / 2 ^ 1069) ∨
      ∃ y, (fin g / fin (n : K) : F K).sqrt = fin y ∧ 0 ≤ y ∧ |y * y - V / n| ≤ n / 2 ^ 47 * (E / n) + 1 / 2 ^ 1069 := by
    intro g V E c k hE0 hV0 hVE hc hc1 hk hk1 hfit hg
    have hX0 : 0 ≤ (n : K) * (roundoff K * E) := mul_nonneg hn0.le (mul_nonneg hu.le hE0)
    have hXb := hXE E hE0
    have hcX : c * (n * (roundoff K * E)) ≤ 38 * (n * (roundoff K * E)) := mul_le_mul_of_nonneg_right hc1 hX0
    have hkY : k * (n * tiny K) ≤ 38 * (n * tiny K) := mul_le_mul_of_nonneg_right hk1 hY0
    obtain ⟨t, t1, t2, t3⟩ := over_count (n : K) g V E _ _ c k hn1 hE0 hV0 hVE rfl rfl hc (by linarith) hk (by linarith)
      hXb (by linarith) hg
    have t4 : |n * t - V| ≤ 40 * (n * (roundoff K * E)) + 40 * (n * tiny K) := by
      refine t3.trans ?_
      have e : (c + 2) * (n * (roundoff K * E)) + (k + 2) * (n * tiny K) =
        c * (n * (roundoff K * E)) + 2 * (n * (roundoff K * E)) + (k * (n * tiny K) + 2 * (n * tiny K)) := by ring
      rw [e]; linarith
    have hB : (64 * (n * (roundoff K * E)) + 64 * (n * tiny K)) / n = n / 2 ^ 47 * (E / n) + 1 / 2 ^ 1069 := by
      have e1 : roundoff K = 1 / (2 ^ 47 * 64) := by unfold roundoff; norm_num
      have e2 : tiny K = 1 / (2 ^ 1069 * 64) := by
        unfold tiny
        rw [show (64 : K) = 2 ^ 6 by norm_num, ← pow_add]
      rw [e1, e2]
      have : (2 : K) ^ 1069 ≠ 0 := by positivity
      generalize (2 : K) ^ 1069 = q at this
      have : (2 : K) ^ 47 ≠ 0 := by positivity
      generalize (2 : K) ^ 47 = q at this
      field_simp
    rw [t1, ← hB]
    rcases root_of_mean (n : K) t V E _ _ hn1 hE0 hV0 hVE rfl rfl hXb (by linarith) t4 with ⟨r1, r2⟩ | ⟨y, r1, r2, r3⟩
    · exact Or.inl ⟨r1, div_le_div_of_nonneg_right (by linarith) hn0.le⟩
    · refine Or.inr ⟨y, r1, r2, ?_⟩
      rw [le_div_iff₀ hn0]
      have e : (y * y - V / n) * n = n * (y * y) - V := by rw [sub_mul, div_mul_cancel₀ _ hn0.ne']; ring
      rw [← abs_of_pos hn0, ← abs_mul, abs_of_pos hn0, e]
      exact r3
  have hEn : ∀ a, E a ≤ n * E a := fun a => le_mul_of_one_le_left (hE0 a) hn1
  have one : ∀ a, ((fl a / fin (n : K)).sqrt = F.nan ∧ meanSqDev (l a) ≤ n / 2 ^ 47 * meanSquare (l a) + 1 / 2 ^ 1069) ∨
      ∃ y, (fl a / fin (n : K)).sqrt = fin y ∧ 0 ≤ y ∧ |y * y - meanSqDev (l a)| ≤ n / 2 ^ 47 * meanSquare (l a) + 1 / 2 ^ 1069 := by
    intro a
    rw [hdev a, hms a, show fl a = fin (f a) from hf1 a]
    refine finish (f a) (V a) (E a) 18 7 (hE0 a) (hV0 a) (hVE a) (by norm_num) (by norm_num) (by norm_num) (by norm_num) ?_ (hf3' a)
    have := hfit a; have := hEn a; have := hE0 a
    linarith
  by_cases m1 : mode = "x"
  · simp only [T, B, modeValue, fluctuation, energy, if_pos m1]; exact one 0
  by_cases m2 : mode = "y"
  · simp only [T, B, modeValue, fluctuation, energy, if_neg m1, if_pos m2]; exact one 1
  by_cases m3 : mode = "z"
  · simp only [T, B, modeValue, fluctuation, energy, if_neg m1, if_neg m2, if_pos m3]; exact one 2
  simp only [T, B, modeValue, fluctuation, energy, if_neg m1, if_neg m2, if_neg m3]
  obtain ⟨g, g1, g2⟩ := third_of_sum f V E (fun a => n * (roundoff K * E a)) (n * tiny K) hE0 hV0 hVE
    (fun a => mul_nonneg hn0.le (mul_nonneg hu.le (hE0 a)))
    (fun a => le_mul_of_one_le_left (mul_nonneg hu.le (hE0 a)) hn1) (fun a => hXE _ (hE0 a)) (le_mul_of_one_le_left ht.le hn1)
    (by have := hfit 0; have := hfit 1; have := hfit 2; have := hEn 0; have := hEn 1; have := hEn 2; have := hE0 0; have := hE0 1; have := hE0 2; linarith)
    hf3'
  have g3 : (fl 0 + fl 1 + fl 2) / F.ofNat 3 = fin g := by rw [show fl 0 = fin (f 0) from hf1 0, show fl 1 = fin (f 1) from hf1 1, show fl 2 = fin (f 2) from hf1 2]; exact g1
  rw [g3, hdev, hdev, hdev, hms, hms, hms]
  have e1 : (V 0 / n + V 1 / n + V 2 / n) / 3 = (V 0 + V 1 + V 2) / 3 / n := by ring
  have e2 : (E 0 / n + E 1 / n + E 2 / n) / 3 = (E 0 + E 1 + E 2) / 3 / n := by ring
  rw [e1, e2]
  have a0 := hV0 0; have a1 := hV0 1; have a2 := hV0 2
  have b0 := hE0 0; have b1 := hE0 1; have b2 := hE0 2
  have c0 := hVE 0; have c1 := hVE 1; have c2 := hVE 2
  refine finish g ((V 0 + V 1 + V 2) / 3) ((E 0 + E 1 + E 2) / 3) 25 20 (by linarith) (by linarith) (by linarith) (by norm_num) (by norm_num)
    (by norm_num) (by norm_num) ?_ ?_
  · have := hfit 0; have := hfit 1; have := hfit 2; have := hEn 0; have := hEn 1; have := hEn 2
    linarith
  · refine g2.trans (le_of_eq ?_)
    ring

/-- **C108.** The granular temperature in rounded arithmetic, on a grid without contents: a cell with `n` samples holds a nonnegative number whose
square is the mean squared deviation up to `n·2^-47` of the mean square velocity (and `2^-1069`) — or it is NaN, which happens only if the mean squared
deviation is below that bound. That NaN does happen is `C108_false`. -/
theorem C108_granular_partial [LawfulArith K] [RoundedArith K] (p : Profile) (d : Dm (Timestep K)) (hd : d.Inv) (grid : Grid K)
    (hg : grid.Fillable p) (hfresh : ∀ c, grid.st.data.get c = 0)
    (sel : Selector K) (hs : sel.Usable) (hw : ∀ t, t < d.n → (d.file t).Wf)
    (hlen : (d.samples sel).length < 2 ^ 52) (v : ℕ × ℕ → Fin 3 → K)
    (hv : ∀ x ∈ d.samples sel, ∀ a, velOf d.file x a = fin (v x a) ∧ IsDouble (v x a) ∧ |v x a| ≤ 2 ^ 400)
    (mode : String) (hm : mode = "x" ∨ mode = "y" ∨ mode = "z" ∨ mode = "xyz") :
    ∃ d' g', granularTemperature p d grid sel mode = .ok (d', g') ∧ ∀ c, InB grid.geom.cells c →
      let S := (d.samples sel).filter fun x => inCell p grid.geom (posOf d.file x) c
      let T := fluctuation mode fun a => S.map fun x => v x a
      let B := (S.length : K) / 2 ^ 47 * energy mode (fun a => S.map fun x => v x a) + 1 / 2 ^ 1069
      g'.st.weight.get c = fin (S.length : K) ∧
      (S ≠ [] → (g'.st.data.get c = F.nan ∧ T ≤ B) ∨ ∃ y, g'.st.data.get c = fin y ∧ 0 ≤ y ∧ |y * y - T| ≤ B) := by
  obtain ⟨d', g', h1, _, _, _, _, _, h6⟩ := granular_run p d hd grid hg sel hs hw mode hm
  refine ⟨d', g', h1, fun c hc => ?_⟩
  obtain ⟨k1, k2⟩ := h6 c hc
  intro S T B
  have hlenS : S.length < 2 ^ 52 := lt_of_le_of_lt (List.length_filter_le _ _) hlen
  have hN : (List.replicate S.length (1 : F K)).foldl (· + ·) 0 = fin (S.length : K) := by
    have h0 := foldl_ones (K := K) 0 S.length (by omega)
    rw [Nat.cast_zero, Nat.zero_add] at h0
    rw [← h0]; rfl
  have hS : ∀ x ∈ S, ∀ a, velOf d.file x a = fin (v x a) ∧ IsDouble (v x a) ∧ |v x a| ≤ 2 ^ 400 :=
    fun x hx => hv x (List.mem_filter.1 hx).1
  have hM : ∀ a, (S.map fun x => velOf d.file x a).foldl (· + ·) 0 = F.sum ((S.map fun x => v x a).map fin) := by
    intro a
    rw [map_fin S _ (fun x => v x a) (fun x hx => (hS x hx a).1)]
    rfl
  have hQ : ∀ a, (S.map fun x => velOf d.file x a * velOf d.file x a).foldl (· + ·) 0 =
      F.sum ((S.map fun x => v x a).map fun y => fin y * fin y) := by
    intro a
    rw [List.map_map]
    change _ = List.foldl _ 0 _
    congr 1
    exact List.map_congr_left fun x hx => by rw [(hS x hx a).1]; rfl
  rw [hfresh c] at k1 k2
  refine ⟨k1.trans hN, fun hne => ?_⟩
  have key := temperature_accurate mode S.length (List.length_pos_iff.2 hne) hlenS (fun a => S.map fun x => v x a) (fun a => List.length_map _)
    (by
      intro a y hy
      obtain ⟨x, hx, rfl⟩ := List.mem_map.1 hy
      exact (hS x hx a).2)
  change g'.st.data.get c = (modeValue mode
    ((S.map fun x => velOf d.file x 0 * velOf d.file x 0).foldl (· + ·) 0 - (S.map fun x => velOf d.file x 0).foldl (· + ·) 0 * (S.map fun x => velOf d.file x 0).foldl (· + ·) 0 / (List.replicate S.length (1 : F K)).foldl (· + ·) 0)
    ((S.map fun x => velOf d.file x 1 * velOf d.file x 1).foldl (· + ·) 0 - (S.map fun x => velOf d.file x 1).foldl (· + ·) 0 * (S.map fun x => velOf d.file x 1).foldl (· + ·) 0 / (List.replicate S.length (1 : F K)).foldl (· + ·) 0)
    ((S.map fun x => velOf d.file x 2 * velOf d.file x 2).foldl (· + ·) 0 - (S.map fun x => velOf d.file x 2).foldl (· + ·) 0 * (S.map fun x => velOf d.file x 2).foldl (· + ·) 0 / (List.replicate S.length (1 : F K)).foldl (· + ·) 0)
    / (List.replicate S.length (1 : F K)).foldl (· + ·) 0).sqrt at k2
  simp only [hN, hM, hQ] at k2
  rw [k2]
  exact key

theorem rnd_negative [RoundedArith K] (x : K) (h1 : x ≤ -(1 / 2 ^ 200)) (h2 : |x| ≤ huge K) : ∃ y, Arith.rnd x = fin y ∧ y ≤ x / 2 := by
  obtain ⟨y, hy⟩ := RoundedArith.rnd_finite x h2
  refine ⟨y, hy, ?_⟩
  have he := (abs_le.1 (RoundedArith.rnd_err x y hy)).2
  have hp : (0 : K) < 1 / 2 ^ 200 := by positivity
  rw [abs_of_neg (by linarith)] at he
  have ht : tiny K ≤ 1 / 4 * (1 / 2 ^ 200) := by
    unfold tiny
    rw [show (1 : K) / 4 * (1 / 2 ^ 200) = 1 / 2 ^ 202 by rw [show (4 : K) = 2 ^ 2 by norm_num, one_div_mul_one_div, ← pow_add]]
    exact one_div_le_one_div_of_le (by positivity) (pow_le_pow_right₀ (by norm_num) (by norm_num))
  have hu : roundoff K * -x ≤ 1 / 16 * -x := mul_le_mul_of_nonneg_right roundoff_le (by linarith)
  linarith

namespace B64

theorem heat1 : rnd (7926335344172073 / 36028797018963968 * (7926335344172073 / 36028797018963968)) = F.fin (54493555491183 / 1125899906842624) := by
  rw [rnd_eq (m := 6975175102871424) (k := -57) (by norm_num) (by norm_num) (by norm_num)
    (by norm_num) (by norm_num) (by rw [abs_lt]; constructor <;> norm_num)]
  norm_num
theorem heat2 : rnd (54493555491183 / 562949953421312 + 54493555491183 / 1125899906842624) = F.fin (163480666473549 / 1125899906842624) := by
  rw [rnd_eq (m := 5231381327153568) (k := -55) (by norm_num) (by norm_num) (by norm_num)
    (by norm_num) (by norm_num) (by rw [abs_lt]; constructor <;> norm_num)]
  norm_num
theorem heat3 : rnd (7926335344172073 / 18014398509481984 + 7926335344172073 / 36028797018963968) = F.fin (5944751508129055 / 9007199254740992) := by
  rw [rnd_eq (m := 5944751508129055) (k := -53) (by norm_num) (by norm_num) (by norm_num)
    (by norm_num) (by norm_num) (by rw [abs_lt]; constructor <;> norm_num)]
  norm_num
theorem heat4 : rnd (5944751508129055 / 9007199254740992 * (5944751508129055 / 9007199254740992)) = F.fin (7847071990730353 / 18014398509481984) := by
  rw [rnd_eq (m := 7847071990730353) (k := -54) (by norm_num) (by norm_num) (by norm_num)
    (by norm_num) (by norm_num) (by rw [abs_lt]; constructor <;> norm_num)]
  norm_num
theorem heat5 : rnd (7847071990730353 / 18014398509481984 / 3) = F.fin (5231381327153569 / 36028797018963968) := by
  rw [rnd_eq (m := 5231381327153569) (k := -55) (by norm_num) (by norm_num) (by norm_num)
    (by norm_num) (by norm_num) (by rw [abs_lt]; constructor <;> norm_num)]
  norm_num

theorem heat1' : Arith.rnd (7926335344172073 / 36028797018963968 * (7926335344172073 / 36028797018963968) : B64) = F.fin (54493555491183 / 1125899906842624) := heat1
theorem heat2' : Arith.rnd (54493555491183 / 562949953421312 + 54493555491183 / 1125899906842624 : B64) = F.fin (163480666473549 / 1125899906842624) := heat2
theorem heat3' : Arith.rnd (7926335344172073 / 18014398509481984 + 7926335344172073 / 36028797018963968 : B64) = F.fin (5944751508129055 / 9007199254740992) := heat3
theorem heat4' : Arith.rnd (5944751508129055 / 9007199254740992 * (5944751508129055 / 9007199254740992) : B64) = F.fin (7847071990730353 / 18014398509481984) := heat4
theorem heat5' : Arith.rnd (7847071990730353 / 18014398509481984 / 3 : B64) = F.fin (5231381327153569 / 36028797018963968) := heat5

/-- The `f64` nearest to 0.22. -/
noncomputable def v22 : B64 := 7926335344172073 / 36028797018963968

theorem near22 : rnd (11 / 50) = F.fin (7926335344172073 / 36028797018963968) := by
  rw [rnd_eq (m := 7926335344172073) (k := -55) (by norm_num) (by norm_num) (by norm_num)
    (by norm_num) (by norm_num) (by rw [abs_lt]; constructor <;> norm_num)]
  norm_num
theorem v22_eq : Arith.rnd (11 / 50 : B64) = F.fin v22 := near22

end B64

/-- The running sums for three equal velocities 0.22 give a negative scatter. -/
theorem scatter_negative : ∃ f : B64, F.sum [fin B64.v22 * fin B64.v22, fin B64.v22 * fin B64.v22, fin B64.v22 * fin B64.v22] -
    F.sum [fin B64.v22, fin B64.v22, fin B64.v22] * F.sum [fin B64.v22, fin B64.v22, fin B64.v22] / fin 3 = fin f ∧
    f ≤ -(1 / 2 ^ 56) ∧ -1 ≤ f := by
  have hq : (fin B64.v22 * fin B64.v22 : F B64) = fin (54493555491183 / 1125899906842624) := B64.heat1'
  have hQ : F.sum [(fin (54493555491183 / 1125899906842624) : F B64), fin (54493555491183 / 1125899906842624), fin (54493555491183 / 1125899906842624)] = fin (163480666473549 / 1125899906842624) := by
    unfold F.sum
    simp only [List.foldl_cons, List.foldl_nil]
    rw [F.zero_def, F.add_fin, zero_add, B64.val 54493555491183 50 (by norm_num) (by norm_num) (by norm_num), F.add_fin,
      B64.val 54493555491183 49 (by norm_num) (by norm_num) (by norm_num),
      show (54493555491183 / 1125899906842624 + 54493555491183 / 1125899906842624 : B64) = 54493555491183 / 562949953421312 by norm_num,
      F.add_fin, B64.heat2']
  have hM : F.sum [(fin B64.v22 : F B64), fin B64.v22, fin B64.v22] = fin (5944751508129055 / 9007199254740992) := by
    unfold F.sum B64.v22
    simp only [List.foldl_cons, List.foldl_nil]
    rw [F.zero_def, F.add_fin, zero_add, B64.val 7926335344172073 55 (by norm_num) (by norm_num) (by norm_num), F.add_fin,
      B64.val 7926335344172073 54 (by norm_num) (by norm_num) (by norm_num),
      show (7926335344172073 / 36028797018963968 + 7926335344172073 / 36028797018963968 : B64) = 7926335344172073 / 18014398509481984 by norm_num,
      F.add_fin, B64.heat3']
  rw [hq, hQ, hM, F.mul_fin, B64.heat4', F.div_fin_ne _ (by norm_num), B64.heat5', F.sub_fin,
    show (163480666473549 / 1125899906842624 - 5231381327153569 / 36028797018963968 : B64) = -(1 / 36028797018963968) by norm_num]
  have hh : (1 : B64) ≤ huge B64 := by unfold huge; exact one_le_pow₀ (by norm_num)
  obtain ⟨y, h1, h2⟩ := rnd_negative (-(1 / 36028797018963968) : B64) (by norm_num) (le_trans (by rw [abs_neg, abs_of_pos (by norm_num)]; norm_num) hh)
  have he := (abs_le.1 (RoundedArith.rnd_err _ y h1)).1
  refine ⟨y, h1, by norm_num at h2 ⊢; linarith, ?_⟩
  rw [abs_neg, abs_of_pos (by norm_num)] at he
  have ht : tiny B64 ≤ 1 / 4 := by
    unfold tiny
    exact one_div_le_one_div_of_le (by norm_num) (by
      have : (4 : B64) = 2 ^ 2 := by norm_num
      rw [this]; exact pow_le_pow_right₀ (by norm_num) (by norm_num))
  have hu : roundoff B64 * (1 / 36028797018963968) ≤ 1 / 16 * (1 / 36028797018963968) := mul_le_mul_of_nonneg_right roundoff_le (by norm_num)
  norm_num at he hu ⊢
  linarith

/-- Three particles in one place, all moving with velocity `(0.22, 0, 0)`. -/
noncomputable def threeAlike : Timestep B64 :=
  ⟨fin 0, [fun _ => fin 0, fun _ => fin 0, fun _ => fin 0], [![fin B64.v22, fin 0, fin 0], ![fin B64.v22, fin 0, fin 0], ![fin B64.v22, fin 0, fin 0]],
    [fin 1, fin 1, fin 1], [fin 1, fin 2, fin 3], [fin 0, fin 0, fin 0], [fin 0, fin 0, fin 0], [fin 0, fin 0, fin 0]⟩

/-- **That a visited cell holds a number is false in binary64.** Three particles in a cell all move with velocity `(0.22, 0, 0)`: their granular temperature is
0, and the field says NaN, as for a cell nobody visited. -/
theorem C108_false (p : Profile) (kind : Kind) : ∃ d : Dm (Timestep B64), Dm.new p kind (fun _ => threeAlike) 1 Timestep.default = .ok d ∧
    ((d.samples Selector.default).filter fun x => inCell p (unitGrid (K := B64)).geom (posOf d.file x) fun _ => 0) = [(0, 0), (0, 1), (0, 2)] ∧
    (∀ i < 3, velOf d.file (0, i) = ![fin B64.v22, fin 0, fin 0]) ∧
    ∀ mode, mode = "x" ∨ mode = "xyz" → ∃ d' g', granularTemperature p d unitGrid Selector.default mode = .ok (d', g') ∧
      g'.st.weight.get (fun _ => 0) = fin 3 ∧ g'.st.data.get (fun _ => 0) = F.nan := by
  obtain ⟨d, e, hinv, hf, hn, _⟩ := Dm.new_ok p kind (fun _ => threeAlike) 1 Timestep.default (by norm_num) (by norm_num)
  have ht : (Selector.default : Selector B64).timestepValid threeAlike.time = true := one_time
  have hsam : d.samples Selector.default = [(0, 0), (0, 1), (0, 2)] := by
    unfold Dm.samples samples Timestep.picks
    rw [hf, hn]
    simp only [ht, if_true]
    simp [threeAlike, chosen_default, List.range_succ]
  have hpos : ∀ i < 3, posOf d.file (0, i) = posOf (fun _ => oneStep (K := B64)) (0, 0) := by
    intro i hi
    rw [hf]
    interval_cases i <;> rfl
  have hvel : ∀ i < 3, velOf d.file (0, i) = ![fin B64.v22, fin 0, fin 0] := by
    intro i hi
    rw [hf]
    interval_cases i <;> rfl
  have hS : ((d.samples Selector.default).filter fun x => inCell p (unitGrid (K := B64)).geom (posOf d.file x) fun _ => 0) = [(0, 0), (0, 1), (0, 2)] := by
    rw [hsam, List.filter_eq_self]
    intro x hx
    simp only [List.mem_cons, List.not_mem_nil, or_false] at hx
    rcases hx with rfl | rfl | rfl <;> rw [hpos _ (by norm_num)] <;> exact unit_lookup p
  refine ⟨d, e, hS, hvel, fun mode hm => ?_⟩
  have hwf : ∀ t, t < d.n → (d.file t).Wf := fun t _ => by rw [hf]; exact ⟨rfl, rfl, rfl, rfl, rfl, rfl⟩
  obtain ⟨d', g', h1, _, _, _, _, _, h6⟩ := granular_run p d hinv unitGrid (fillable_cart p _ unit_isCart) Selector.default usable_default hwf mode
    (by rcases hm with rfl | rfl <;> simp)
  refine ⟨d', g', h1, ?_⟩
  obtain ⟨k1, k2⟩ := h6 (fun _ => 0) (fun a => by simp [unitGrid, Grid.newCart, CartGeom.new, Geom.cells])
  have hz : (unitGrid (K := B64)).st.data.get (fun _ => 0) = 0 := rfl
  rw [hS, hz] at k1 k2
  have hN : (List.replicate [((0 : ℕ), (0 : ℕ)), (0, 1), (0, 2)].length (1 : F B64)).foldl (· + ·) 0 = fin 3 := by
    have h0 := foldl_ones (K := B64) 0 3 (by norm_num)
    rw [Nat.cast_zero, Nat.zero_add] at h0
    have e3 : ((3 : ℕ) : B64) = 3 := by norm_num
    rw [e3] at h0
    exact h0
  refine ⟨k1.trans hN, ?_⟩
  obtain ⟨f, f1, f2, f3⟩ := scatter_negative
  have c0 : ∀ i < 3, velOf d.file (0, i) 0 = fin B64.v22 := fun i hi => by rw [hvel i hi]; rfl
  have c1 : ∀ i < 3, velOf d.file (0, i) 1 = fin 0 := fun i hi => by rw [hvel i hi]; rfl
  have c2 : ∀ i < 3, velOf d.file (0, i) 2 = fin 0 := fun i hi => by rw [hvel i hi]; rfl
  simp only [List.map_cons, List.map_nil, c0 0 (by norm_num), c0 1 (by norm_num), c0 2 (by norm_num), c1 0 (by norm_num), c1 1 (by norm_num),
    c1 2 (by norm_num), c2 0 (by norm_num), c2 1 (by norm_num), c2 2 (by norm_num), hN] at k2
  have hz0 : F.sum [(fin 0 : F B64) * fin 0, fin 0 * fin 0, fin 0 * fin 0] - F.sum [(fin 0 : F B64), fin 0, fin 0] * F.sum [(fin 0 : F B64), fin 0, fin 0] / fin 3 =
      fin 0 := by
    simp [F.sum, F.mul_fin, F.zero_def, F.add_fin, F.sub_fin, F.div_fin_ne]
  change _ = (modeValue mode (F.sum [fin B64.v22 * fin B64.v22, fin B64.v22 * fin B64.v22, fin B64.v22 * fin B64.v22] -
    F.sum [fin B64.v22, fin B64.v22, fin B64.v22] * F.sum [fin B64.v22, fin B64.v22, fin B64.v22] / fin 3)
    (F.sum [(fin 0 : F B64) * fin 0, fin 0 * fin 0, fin 0 * fin 0] - F.sum [(fin 0 : F B64), fin 0, fin 0] * F.sum [(fin 0 : F B64), fin 0, fin 0] / fin 3)
    (F.sum [(fin 0 : F B64) * fin 0, fin 0 * fin 0, fin 0 * fin 0] - F.sum [(fin 0 : F B64), fin 0, fin 0] * F.sum [(fin 0 : F B64), fin 0, fin 0] / fin 3)
    / fin 3).sqrt at k2
  rw [hz0, f1] at k2
  rw [k2]
  have hh : (1 : B64) ≤ huge B64 := by unfold huge; exact one_le_pow₀ (by norm_num)
  have hneg : ∀ x : B64, x ≤ -(1 / 2 ^ 100) → -1 ≤ x → ∃ y, Arith.rnd x = fin y ∧ y ≤ x / 2 ∧ -2 ≤ y := by
    intro x h1 h2
    have hp : (0 : B64) < 1 / 2 ^ 100 := by positivity
    obtain ⟨y, e1, e2⟩ := rnd_negative x (h1.trans (by norm_num)) (by rw [abs_of_neg (by linarith)]; linarith)
    refine ⟨y, e1, e2, ?_⟩
    have he := (abs_le.1 (RoundedArith.rnd_err x y e1)).1
    rw [abs_of_neg (by linarith)] at he
    have ht : tiny B64 ≤ 1 / 4 := by
      unfold tiny
      exact one_div_le_one_div_of_le (by norm_num) (by
        have : (4 : B64) = 2 ^ 2 := by norm_num
        rw [this]; exact pow_le_pow_right₀ (by norm_num) (by norm_num))
    have hu : roundoff B64 * -x ≤ 1 / 16 * -x := mul_le_mul_of_nonneg_right roundoff_le (by linarith)
    linarith
  have last : ∀ x : B64, x ≤ -(1 / 2 ^ 98) → -3 ≤ x → (fin x / fin 3 : F B64).sqrt = F.nan := by
    intro x h1 h2
    obtain ⟨y, e1, e2, _⟩ := hneg (x / 3) (by norm_num at h1 ⊢; linarith) (by linarith)
    rw [F.div_fin_ne _ (by norm_num), e1]
    have hp : (0 : B64) < 1 / 2 ^ 98 := by positivity
    change (if y < 0 then F.nan else _) = _
    rw [if_pos (by linarith)]
  rcases hm with rfl | rfl
  · exact last f (by norm_num at f2 ⊢; linarith) (by linarith)
  · obtain ⟨y1, e1, e2, e3⟩ := hneg f (by norm_num at f2 ⊢; linarith) f3
    have hy1 : Arith.rnd y1 = fin y1 := double_of_rnd e1
    obtain ⟨y3, e5, e6, e7⟩ := hneg (y1 / 3) (by norm_num at f2 ⊢; linarith) (by linarith)
    change (((fin f + fin 0 + fin 0) / F.ofNat 3) / fin 3 : F B64).sqrt = _
    have h3 : (F.ofNat 3 : F B64) = fin 3 := by rw [F.ofNat_eq 3 (by norm_num)]; norm_num
    rw [F.add_fin, add_zero, e1, F.add_fin, add_zero, hy1, h3, F.div_fin_ne _ (by norm_num), e5]
    exact last y3 (by norm_num at f2 ⊢; linarith) (by linarith)

/-- Witness for C108: one particle of velocity `(1, 0, 0)`, in binary64. -/
example (p : Profile) (kind : Kind) : ∃ (d d' : Dm (Timestep B64)) (g' : Grid B64), Dm.new p kind (fun _ => oneStep) 1 Timestep.default = .ok d ∧
    granularTemperature p d unitGrid Selector.default "x" = .ok (d', g') ∧ (g'.st.data.get (fun _ => 0) = F.nan ∨
      ∃ y, g'.st.data.get (fun _ => 0) = fin y ∧ 0 ≤ y ∧ y * y ≤ 1 / 2 ^ 47 + 1 / 2 ^ 1069) := by
  obtain ⟨d, e, hinv, hS, hw, hv, hc⟩ := one_stored p kind
  obtain ⟨d', g', h1, h2⟩ := C108_granular_partial p d hinv unitGrid (fillable_cart p _ unit_isCart) (fun _ => rfl) Selector.default usable_default hw
    (by rw [hS]; norm_num) (fun _ => ![1, 0, 0]) (by
      rw [hS]; intro x hx a; rw [List.mem_singleton.1 hx]
      refine ⟨(hv a).1, (hv a).2.1, ?_⟩
      have h1 : (1 : B64) ≤ 2 ^ 400 := one_le_pow₀ (by norm_num)
      refine le_trans ?_ h1
      fin_cases a
      · change |(1 : B64)| ≤ 1
        rw [abs_one]
      · change |(0 : B64)| ≤ 1
        rw [abs_zero]; exact zero_le_one
      · change |(0 : B64)| ≤ 1
        rw [abs_zero]; exact zero_le_one) "x" (by simp)
  obtain ⟨_, h3⟩ := h2 (fun _ => 0) (fun a => by simp [unitGrid, Grid.newCart, CartGeom.new, Geom.cells])
  have hf : ((d.samples Selector.default).filter fun x => inCell p (unitGrid (K := B64)).geom (posOf d.file x) fun _ => 0) = [(0, 0)] := by
    rw [hS]; simp [hc]
  rw [hf] at h3
  refine ⟨d, d', g', e, h1, ?_⟩
  rcases h3 (by simp) with ⟨h, _⟩ | ⟨y, y1, y2, y3⟩
  · exact Or.inl h
  · refine Or.inr ⟨y, y1, y2, ?_⟩
    have t0 : meanSqDev [(1 : B64)] = 0 := by simp [meanSqDev, mean]
    have e0 : meanSquare [(1 : B64)] = 1 := by simp [meanSquare]
    change |y * y - meanSqDev [(1 : B64)]| ≤ ((1 : ℕ) : B64) / 2 ^ 47 * meanSquare [(1 : B64)] + 1 / 2 ^ 1069 at y3
    rw [t0, e0, sub_zero, mul_one, Nat.cast_one] at y3
    exact (le_abs_self _).trans y3

end Up4
