import Verif.Proofs.Samples
import Verif.Binary64

set_option linter.unusedSectionVars false

/-! # C31–C33: extraction, time search -/

namespace Up4
open F
open Selector (at')

variable {K : Type} [Field K] [LinearOrder K] [IsStrictOrderedRing K] [FloorRing K] [Arith K]

/-- A time array with the finite entries `τ 0, …, τ (n-1)`. -/
def timesOf (τ : ℕ → K) (n : ℕ) : List (F K) := (List.range n).map fun i => fin (τ i)

theorem timesOf_get (τ : ℕ → K) {n i : ℕ} (h : i < n) : (timesOf τ n)[i]? = some (fin (τ i)) := by
  unfold timesOf
  rw [List.getElem?_map, List.getElem?_range h]; rfl

theorem timesOf_length (τ : ℕ → K) (n : ℕ) : (timesOf τ n).length = n := by simp [timesOf]

theorem timesOf_at (τ : ℕ → K) {n i : ℕ} (h : i < n) : at' (timesOf τ n) i = .ok (fin (τ i)) := by
  unfold at'; rw [timesOf_get τ h]

/-- The tolerance literal `0.01` is positive. -/
theorem tol_pos [LawfulArith K] : (0 : F K) < F.lit (1 / 100) := by
  have h := LawfulArith.rnd_dyadic (K := K) 1 7 (by norm_num) (by norm_num)
  have h1 : Arith.rnd (((1 : ℕ) : K) / 2 ^ 7) ≤ (Arith.rnd (1 / 100) : F K) := LawfulArith.rnd_mono _ _ (by norm_num)
  rw [h] at h1
  refine F.lt_of_lt_of_le' (b := fin (((1 : ℕ) : K) / 2 ^ 7)) ?_ h1
  rw [F.zero_def, F.lt_fin]; positivity

/-- The binary search: where it ends. -/
theorem searchLoop_spec [LawfulArith K] (p : Profile) (τ : ℕ → K) (n : ℕ) (y : K)
    (hmono : ∀ i j, i ≤ j → j < n → τ i ≤ τ j) (hfirst : τ 0 ≤ y) (hlast : y ≤ τ (n - 1)) :
    ∀ (m low high mid : ℕ), high + 1 - low ≤ m → low ≤ high + 1 → high < n →
      (∀ j, j < low → τ j < y) → (∀ j, high < j → j < n → y ≤ τ j) →
      (low ≤ high ∨ (mid + 1 = low ∨ (mid = high + 1 ∧ mid < n))) →
      ∃ k, searchLoop p (timesOf τ n) (fin y) low high mid = .ok (some k) ∧ k < n ∧
        ((fin (τ k) - fin y).abs < (F.lit (1 / 100) : F K) ∨ (τ k < y ∧ k + 1 < n ∧ y ≤ τ (k + 1)) ∨
          (y ≤ τ k ∧ 1 ≤ k ∧ τ (k - 1) < y)) := by
  intro m
  induction m with
  | zero =>
    intro low high mid hm hle hhn hlow hhigh hmid
    have hgt : ¬ low ≤ high := by omega
    rw [searchLoop.eq_def, dif_neg hgt]
    refine ⟨mid, rfl, ?_⟩
    rcases hmid with h | h | ⟨h, h'⟩
    · omega
    · refine ⟨by omega, Or.inr (Or.inl ⟨hlow mid (by omega), ?_, ?_⟩)⟩
      · by_contra hc
        have : mid = n - 1 := by omega
        have h2 := hlow mid (by omega)
        rw [this] at h2
        exact absurd hlast (not_le.2 h2)
      · apply hhigh _ (by omega)
        by_contra hc
        have : mid = n - 1 := by omega
        have h2 := hlow mid (by omega)
        rw [this] at h2
        exact absurd hlast (not_le.2 h2)
    · exact ⟨h', Or.inr (Or.inr ⟨hhigh mid (by omega) h', by omega, hlow _ (by omega)⟩)⟩
  | succ m ih =>
    intro low high mid hm hle hhn hlow hhigh hmid
    by_cases hgo : low ≤ high
    swap
    · exact (by
        rw [searchLoop.eq_def, dif_neg hgo]
        refine ⟨mid, rfl, ?_⟩
        rcases hmid with h | h | ⟨h, h'⟩
        · omega
        · have hlt : mid + 1 < n := by
            by_contra hc
            have : mid = n - 1 := by omega
            have h2 := hlow mid (by omega)
            rw [this] at h2
            exact absurd hlast (not_le.2 h2)
          exact ⟨by omega, Or.inr (Or.inl ⟨hlow mid (by omega), hlt, hhigh _ (by omega) hlt⟩)⟩
        · exact ⟨h', Or.inr (Or.inr ⟨hhigh mid (by omega) h', by omega, hlow _ (by omega)⟩)⟩)
    · set q := (low + high) / 2 with hq
      have hq1 : low ≤ q := by omega
      have hq2 : q ≤ high := by omega
      rw [searchLoop.eq_def, dif_pos hgo, ← hq]
      clear_value q
      rw [timesOf_get τ (by omega : q < n)]
      dsimp only
      by_cases htol : (fin (τ q) - fin y).abs < (F.lit (1 / 100) : F K)
      · rw [if_pos htol]
        exact ⟨q, rfl, by omega, Or.inl htol⟩
      · rw [if_neg htol]
        by_cases hlt : τ q < y
        · rw [if_pos (by rw [F.lt_fin]; exact hlt)]
          refine ih (q + 1) high q (by omega) (by omega) hhn ?_ hhigh (Or.inr (Or.inl rfl))
          intro j hj
          exact lt_of_le_of_lt (hmono j q (by omega) (by omega)) hlt
        · rw [if_neg (by rw [F.lt_fin]; exact hlt)]
          have hq0 : q ≠ 0 := by
            intro h0
            apply htol
            have e : τ q = y := le_antisymm (h0 ▸ hfirst) (not_lt.1 hlt)
            rw [e, F.sub_fin, sub_self, F.rnd_zero]
            simp only [F.abs, abs_zero]
            exact tol_pos
          rw [dif_neg hq0]
          refine ih low (q - 1) q (by omega) (by omega) (by omega) hlow ?_ (Or.inr (Or.inr ⟨by omega, by omega⟩))
          intro j hj hjn
          by_cases h : j ≤ high
          · exact le_trans (not_lt.1 hlt) (hmono q j (by omega) hjn)
          · exact hhigh j (by omega) hjn

/-- **C32.** `timestep_at_seconds_closest`, for every nondecreasing finite time array of at least one entry and every
requested (finite) time, any lawful arithmetic, both profiles: it terminates without panic; it errs exactly when the
requested time is before the first or after the last entry; otherwise it returns an index of the array whose time is
within 0.01 s of the request, or one of the two neighbours that enclose the requested time. -/
theorem C32_search [LawfulArith K] (p : Profile) (τ : ℕ → K) (n : ℕ) (hn : 1 ≤ n) (hn' : n ≤ 2 ^ 63) (y : K)
    (hmono : ∀ i j, i ≤ j → j < n → τ i ≤ τ j) :
    ∃ r, closest p (timesOf τ n) (fin y) = .ok r ∧ (r = none ↔ (y < τ 0 ∨ τ (n - 1) < y)) ∧
      ∀ k, r = some k → k < n ∧
        ((fin (τ k) - fin y).abs < (F.lit (1 / 100) : F K) ∨ (τ k < y ∧ k + 1 < n ∧ y ≤ τ (k + 1)) ∨
          (y ≤ τ k ∧ 1 ≤ k ∧ τ (k - 1) < y)) := by
  unfold closest
  rw [timesOf_length, usub_ok p hn hn', run_bind_ok, timesOf_at τ (by omega), run_bind_ok]
  by_cases h1 : τ (n - 1) < y
  · rw [if_pos (by rw [F.lt_fin]; exact h1)]
    exact ⟨none, rfl, by simp [h1], fun k h => by cases h⟩
  · rw [if_neg (by rw [F.lt_fin]; exact h1), timesOf_at τ (by omega), run_bind_ok]
    by_cases h2 : y < τ 0
    · rw [if_pos (by rw [gt_iff_lt, F.lt_fin]; exact h2)]
      exact ⟨none, rfl, by simp [h2], fun k h => by cases h⟩
    · rw [if_neg (by rw [gt_iff_lt, F.lt_fin]; exact h2)]
      obtain ⟨k, e, hk, hb⟩ := searchLoop_spec p τ n y hmono (not_lt.1 h2) (not_lt.1 h1) n 0 (n - 1) ((0 + (n - 1)) / 2)
        (by omega) (by omega) (by omega) (by intro j hj; omega) (by intro j hj hj'; omega) (Or.inl (by omega))
      refine ⟨some k, e, by simp [h1, h2], ?_⟩
      intro k' hk'
      cases hk'
      exact ⟨hk, hb⟩

/-- An empty time array panics: on the subtraction (debug) or the index (release). -/
theorem C32_empty_panics (p : Profile) (x : F K) : ∃ e, closest p [] x = .error e := by
  unfold closest
  cases p with
  | debug => exact ⟨.overflow, rfl⟩
  | release => exact ⟨.index, by simp [usub, at']⟩

/-- Witness for C32: three recorded times and a request between them. -/
example : ∀ i j, i ≤ j → j < 3 → (fun k : ℕ => (k : ℝ)) i ≤ (fun k : ℕ => (k : ℝ)) j :=
  fun i j h _ => by simpa using h

/-! ### C33 -/

/-- The loop finds a recorded time whose distance to all others is at least the tolerance. -/
theorem searchLoop_hit [LawfulArith K] (p : Profile) (τ : ℕ → K) (n k : ℕ) (hk : k < n)
    (hmono : ∀ i j, i < j → j < n → τ i < τ j)
    (hsep : ∀ i, i < n → i ≠ k → ¬ (fin (τ i) - fin (τ k)).abs < (F.lit (1 / 100) : F K)) :
    ∀ (m low high mid : ℕ), high + 1 - low ≤ m → high < n → low ≤ k → k ≤ high →
      searchLoop p (timesOf τ n) (fin (τ k)) low high mid = .ok (some k) := by
  intro m
  induction m with
  | zero => intro low high mid h1 h2 h3 h4; omega
  | succ m ih =>
    intro low high mid h1 h2 h3 h4
    set q := (low + high) / 2 with hq
    have hq1 : low ≤ q := by omega
    have hq2 : q ≤ high := by omega
    rw [searchLoop.eq_def, dif_pos (by omega), ← hq]
    clear_value q
    rw [timesOf_get τ (by omega : q < n)]
    dsimp only
    by_cases hqk : q = k
    · subst hqk
      rw [if_pos]
      rw [F.sub_fin, sub_self, F.rnd_zero]
      simp only [F.abs, abs_zero]
      exact tol_pos
    · rw [if_neg (hsep q (by omega) hqk)]
      by_cases hlt : q < k
      · rw [if_pos (by rw [F.lt_fin]; exact hmono q k hlt hk)]
        exact ih (q + 1) high q (by omega) h2 (by omega) h4
      · have : k < q := by omega
        rw [if_neg (by rw [F.lt_fin, not_lt]; exact (hmono k q this (by omega)).le), dif_neg (by omega)]
        exact ih low (q - 1) q (by omega) (by omega) h3 (by omega)

/-- **C33 (partial).** The full property: the returned index minimises the distance to the requested time.
Proved: if the requested time is itself recorded, at index `k`, and every other recorded time is at least the tolerance
(0.01 s) away, the search returns `k`. Missing: requests between recorded times, and recordings finer than 0.01 s; for both
the property is false (`C33_false`, `C33_tolerance_false`). -/
theorem C33_recorded_partial [LawfulArith K] (p : Profile) (τ : ℕ → K) (n k : ℕ) (hk : k < n) (hn' : n ≤ 2 ^ 63)
    (hmono : ∀ i j, i < j → j < n → τ i < τ j)
    (hsep : ∀ i, i < n → i ≠ k → ¬ (fin (τ i) - fin (τ k)).abs < (F.lit (1 / 100) : F K)) :
    closest p (timesOf τ n) (fin (τ k)) = .ok (some k) := by
  have hle : ∀ i j, i ≤ j → j < n → τ i ≤ τ j := by
    intro i j h1 h2
    rcases Nat.lt_or_ge i j with h | h
    · exact (hmono i j h h2).le
    · rw [le_antisymm h1 h]
  unfold closest
  rw [timesOf_length, usub_ok p (by omega) hn', run_bind_ok, timesOf_at τ (by omega), run_bind_ok,
    if_neg (by rw [F.lt_fin, not_lt]; exact hle _ _ (by omega) (by omega)), timesOf_at τ (by omega), run_bind_ok,
    if_neg (by rw [gt_iff_lt, F.lt_fin, not_lt]; exact hle _ _ (by omega) (by omega))]
  exact searchLoop_hit p τ n k hk hmono hsep n 0 (n - 1) _ (by omega) (by omega) (by omega) (by omega)

/-- Witness for C33_recorded_partial: one recording per second. -/
example (i k : ℕ) (h : i ≠ k) : ¬ (fin (i : ℝ) - fin (k : ℝ) : F ℝ).abs < (F.lit (1 / 100) : F ℝ) := by
  rw [F.esub, F.elit]
  simp only [F.abs, F.lt_fin, not_lt]
  have h1 : (1 : ℝ) ≤ |(i : ℝ) - k| := by
    have h2 : ((i : ℤ) - k) ≠ 0 := by omega
    have h3 : (1 : ℤ) ≤ |(i : ℤ) - k| := Int.one_le_abs h2
    exact_mod_cast h3
  linarith

section counter
variable [LawfulArith K]

theorem lit_le : (F.lit (1 / 100) : F K) ≤ fin (1 / 4) := by
  have h := LawfulArith.rnd_dyadic (K := K) 1 2 (by norm_num) (by norm_num)
  have h1 : (Arith.rnd (1 / 100) : F K) ≤ Arith.rnd (((1 : ℕ) : K) / 2 ^ 2) := LawfulArith.rnd_mono _ _ (by norm_num)
  rw [h] at h1
  have e : ((1 : ℕ) : K) / 2 ^ 2 = 1 / 4 := by norm_num
  rw [e] at h1
  exact h1

/-- **C33 is false of the code**, in every lawful arithmetic and both profiles: with recorded times 0, 1, 2, 3 s and the
request 3/4 s the search returns index 0, although index 1 is nearer. -/
theorem C33_false (p : Profile) :
    closest p (timesOf (fun i => (i : K)) 4) (fin (3 / 4)) = .ok (some 0) ∧ |(1 : K) - 3 / 4| < |0 - 3 / 4| := by
  refine ⟨?_, by norm_num [abs_of_neg]⟩
  unfold closest
  rw [timesOf_length, usub_ok p (by norm_num) (by norm_num), run_bind_ok, timesOf_at _ (by norm_num), run_bind_ok,
    if_neg (by rw [F.lt_fin]; norm_num), timesOf_at _ (by norm_num), run_bind_ok,
    if_neg (by rw [gt_iff_lt, F.lt_fin]; norm_num)]
  have d14 := LawfulArith.rnd_dyadic (K := K) 1 2 (by norm_num) (by norm_num)
  have d34 := LawfulArith.rnd_dyadic (K := K) 3 2 (by norm_num) (by norm_num)
  have e1 : ((fin ((1 : ℕ) : K) - fin (3 / 4)).abs : F K) = fin (1 / 4) := by
    rw [F.sub_fin]
    rw [show ((1 : ℕ) : K) - 3 / 4 = ((1 : ℕ) : K) / 2 ^ 2 by norm_num, d14]
    simp only [F.abs]; congr 1; norm_num
  have e0 : ((fin ((0 : ℕ) : K) - fin (3 / 4)).abs : F K) = fin (3 / 4) := by
    rw [F.sub_fin, show ((0 : ℕ) : K) - 3 / 4 = -(((3 : ℕ) : K) / 2 ^ 2) by norm_num, LawfulArith.rnd_neg, d34]
    simp only [F.neg_fin, F.abs, abs_neg]; congr 1; norm_num
  have t1 : ¬ (fin (1 / 4) : F K) < F.lit (1 / 100) := F.not_lt_of_le' lit_le
  have t0 : ¬ (fin (3 / 4) : F K) < F.lit (1 / 100) :=
    F.not_lt_of_le' (F.le_trans' lit_le (by rw [F.le_fin]; norm_num))
  rw [searchLoop.eq_def, dif_pos (by norm_num)]
  norm_num only
  rw [timesOf_get _ (by norm_num)]
  dsimp only
  rw [e1, if_neg t1, if_neg (by rw [F.lt_fin]; norm_num), dif_neg (by norm_num), searchLoop.eq_def, dif_pos (by norm_num)]
  norm_num only
  rw [timesOf_get _ (by norm_num)]
  dsimp only
  rw [e0, if_neg t0, if_pos (by rw [F.lt_fin]; norm_num), searchLoop.eq_def, dif_neg (by norm_num)]

/-- **C33 is also false below the tolerance**: with times 0, 1/512, 2/512 s (finer than 0.01 s) the request 0 s, itself
recorded at index 0, returns index 1. -/
theorem C33_tolerance_false (p : Profile) :
    closest p (timesOf (fun i => (i : K) / 512) 3) (fin 0) = .ok (some 1) := by
  unfold closest
  rw [timesOf_length, usub_ok p (by norm_num) (by norm_num), run_bind_ok, timesOf_at _ (by norm_num), run_bind_ok,
    if_neg (by rw [F.lt_fin]; norm_num), timesOf_at _ (by norm_num), run_bind_ok,
    if_neg (by rw [gt_iff_lt, F.lt_fin]; norm_num)]
  rw [searchLoop.eq_def, dif_pos (by norm_num)]
  norm_num only
  rw [timesOf_get _ (by norm_num)]
  dsimp only
  have d := LawfulArith.rnd_dyadic (K := K) 1 9 (by norm_num) (by norm_num)
  rw [if_pos]
  rw [F.sub_fin, show ((1 : ℕ) : K) / 512 - 0 = ((1 : ℕ) : K) / 2 ^ 9 by norm_num, d]
  simp only [F.abs]
  have h := LawfulArith.rnd_dyadic (K := K) 1 7 (by norm_num) (by norm_num)
  have h1 : Arith.rnd (((1 : ℕ) : K) / 2 ^ 7) ≤ (Arith.rnd (1 / 100) : F K) := LawfulArith.rnd_mono _ _ (by norm_num)
  rw [h] at h1
  refine F.lt_of_lt_of_le' ?_ h1
  rw [F.lt_fin, abs_of_pos (by positivity)]
  norm_num

end counter

/-! ### C31 -/

/-- **C31.** `extract(i, (a, b))` on any dataset manager (whatever was read before), `a ≤ b < n`, `i` a particle of every
timestep of the range: it returns `b - a` rows; row `k` holds time, position and velocity of particle `i` of timestep `a+k`. -/
theorem C31_extract [LawfulArith K] (p : Profile) (d : Dm (Timestep K)) (hd : d.Inv) (i a b : ℕ) (hab : a ≤ b) (hb : b < d.n)
    (hw : ∀ t, a ≤ t → t < b → (d.file t).Wf ∧ i < (d.file t).position.length) :
    ∃ d', d'.Inv ∧ d'.file = d.file ∧ d'.n = d.n ∧
      extract p d i a b = .ok (d', (List.range (b - a)).map fun k =>
        [(d.file (a + k)).time, (d.file (a + k)).pos i 0, (d.file (a + k)).pos i 1, (d.file (a + k)).pos i 2,
          (d.file (a + k)).vel i 0, (d.file (a + k)).vel i 1, (d.file (a + k)).vel i 2]) := by
  obtain ⟨bf, hbf, _, e⟩ := forSteps_eq (K := K) p (List.range' a (b - a)) (fun acc _ ts => do
    let row ← extractRow i ts
    pure (acc ++ [row])) d hd (by intro t ht; rw [List.mem_range'_1] at ht; omega) []
  refine ⟨{ d with main := bf }, ⟨hbf, hd.2⟩, rfl, rfl, ?_⟩
  unfold extract
  rw [if_neg (by omega), if_neg (by omega), e]
  have key : ∀ (m s : ℕ) (acc : List (List (F K))), (∀ t, s ≤ t → t < s + m → (d.file t).Wf ∧ i < (d.file t).position.length) →
      (List.range' s m).foldlM (fun acc t => do
        let row ← extractRow i (d.file t)
        pure (acc ++ [row])) acc = .ok (acc ++ (List.range m).map fun k =>
        [(d.file (s + k)).time, (d.file (s + k)).pos i 0, (d.file (s + k)).pos i 1, (d.file (s + k)).pos i 2,
          (d.file (s + k)).vel i 0, (d.file (s + k)).vel i 1, (d.file (s + k)).vel i 2]) := by
    intro m
    induction m with
    | zero => intro s acc _; simp
    | succ m ih =>
      intro s acc hs
      obtain ⟨w1, w2⟩ := hs s (by omega) (by omega)
      rw [List.range'_succ, List.foldlM_cons]
      have hr : extractRow i (d.file s) = .ok [(d.file s).time, (d.file s).pos i 0, (d.file s).pos i 1, (d.file s).pos i 2,
          (d.file s).vel i 0, (d.file s).vel i 1, (d.file s).vel i 2] := by
        unfold extractRow
        rw [at_ok w2 (fun _ => F.nan), run_bind_ok, at_ok (w1.1 ▸ w2) (fun _ => F.nan), run_bind_ok]
        rfl
      rw [hr, run_bind_ok, run_pure, run_bind_ok, ih (s + 1) _ (fun t h1 h2 => hs t (by omega) (by omega)),
        List.append_assoc, List.range_succ_eq_map, List.map_cons, List.map_map]
      congr 2
      simp only [Nat.add_zero, List.singleton_append, List.cons.injEq, true_and]
      apply List.map_congr_left
      intro k _
      simp only [Function.comp, Nat.succ_eq_add_one]
      rw [show s + 1 + k = s + (k + 1) by omega]
  rw [key (b - a) a [] (fun t h1 h2 => hw t h1 (by omega)), run_bind_ok]
  rfl

/-- **C31, rejection.** A range starting or ending at or beyond the number of timesteps panics. -/
theorem C31_reject (p : Profile) (d : Dm (Timestep K)) (i a b : ℕ) (h : d.n ≤ a ∨ d.n ≤ b) :
    extract p d i a b = .error .explicit := by
  unfold extract
  rw [if_pos h]

/-- A backwards range panics too. -/
theorem C31_backwards (p : Profile) (d : Dm (Timestep K)) (i a b : ℕ) (h : b < a) : ∃ e, extract p d i a b = .error e := by
  unfold extract
  split_ifs
  · exact ⟨_, rfl⟩
  · exact ⟨_, rfl⟩

end Up4
