import Verif.Props.Occupancy
import Verif.Props.Accuracy
import Verif.Proofs.ColumnAccuracy

set_option linter.unusedSectionVars false

/-! # C142: the occupancy field is accurate in floating-point arithmetic -/

namespace Up4
open F
open Selector (at')

variable {K : Type} [Field K] [LinearOrder K] [IsStrictOrderedRing K] [FloorRing K] [Arith K]

/-! ### The computation as sums, in any arithmetic -/

/-- What a step from `a` to `b` of duration `v` adds to cell `c`: in a Cartesian grid half the duration for each end in the cell (nothing if an end is outside), in a
cylindrical grid the duration if it starts in the cell. -/
def booked (p : Profile) (g : Geom K) (a b : Pos K) (v : F K) (c : CellId) : List (F K) :=
  match g with
  | .cart _ => match g.lookup p a, g.lookup p b with
    | some c1, some c2 => (if c1 = c then [v * F.lit (1 / 2)] else []) ++ (if c2 = c then [v * F.lit (1 / 2)] else [])
    | _, _ => []
  | .cyl _ => if g.lookup p a = some c then [v] else []

theorem addTrajectory_booked [LawfulArith K] (p : Profile) (g : Grid K) (hg : IsCart g ∨ (g.Fillable p ∧ ∃ cg, g.geom = .cyl cg))
    (a b : Pos K) (ha : g.geom.isInside a = true) (v : F K) :
    ∃ g', g.addTrajectoryValue p a b v = .ok g' ∧ g'.geom = g.geom ∧ g'.Shaped ∧
      ∀ c, g'.st.data.get c = (booked p g.geom a b v c).foldl (· + ·) (g.st.data.get c) := by
  rcases hg with hg | ⟨hg, cg, hcg⟩
  · obtain ⟨cg, hcg⟩ := hg.1
    have hsh : ∀ c, booked p g.geom a b v c = match g.geom.lookup p a, g.geom.lookup p b with
        | some c1, some c2 => (if c1 = c then [v * F.lit (1 / 2)] else []) ++ (if c2 = c then [v * F.lit (1 / 2)] else [])
        | _, _ => [] := by
      intro c; rw [hcg]; rfl
    refine ⟨_, addTrajectoryValue_eq p g hg a b v, ?_⟩
    cases h1 : g.geom.lookup p a with
    | none => exact ⟨rfl, hg.2.2, fun c => by rw [hsh c, h1]; rfl⟩
    | some c1 =>
      cases h2 : g.geom.lookup p b with
      | none => exact ⟨rfl, hg.2.2, fun c => by rw [hsh c, h1, h2]; rfl⟩
      | some c2 =>
        refine ⟨rfl, hg.2.2, fun c => ?_⟩
        rw [hsh c, h1, h2]
        dsimp only [Store.bump]
        by_cases k1 : c = c1
        · subst k1
          by_cases k2 : c = c2
          · subst k2
            simp
          · have k2' : c2 ≠ c := fun h => k2 h.symm
            simp [Function.update_of_ne k2, k2']
        · have k1' : c1 ≠ c := fun h => k1 h.symm
          by_cases k2 : c = c2
          · subst k2
            simp [Function.update_of_ne k1, k1']
          · have k2' : c2 ≠ c := fun h => k2 h.symm
            simp [Function.update_of_ne k1, Function.update_of_ne k2, k1', k2']
  · have hsh : ∀ c, booked p g.geom a b v c = if g.geom.lookup p a = some c then [v] else [] := by
      intro c; rw [hcg]; rfl
    have e : g.addTrajectoryValue p a b v = g.addValue p a v := by
      unfold Grid.addTrajectoryValue; rw [hcg]
    obtain ⟨c1, h1, hb1⟩ := hg.2.isSome ha
    rw [e, Grid.addValue_eq hg.1 (hg.2.lookupOk ha)]
    refine ⟨_, rfl, Grid.bumped_geom _ _ _, Grid.bumped_shaped hg.1 _ _, fun c => ?_⟩
    rw [hsh c, h1]
    unfold Grid.bumped
    dsimp only [Store.bump]
    by_cases k1 : c = c1
    · subst k1
      simp
    · have k1' : ¬ (some c1 = some c) := fun h => k1 (Option.some.inj h).symm
      rw [if_neg k1']
      simp [Function.update_of_ne k1]

/-- A whole sequence of steps, with the total time kept beside. -/
theorem booked_fold [LawfulArith K] {α : Type} (p : Profile) (L : List α) (a b : α → Pos K) (v : α → F K) (g : Grid K)
    (hg : IsCart g ∨ (g.Fillable p ∧ ∃ cg, g.geom = .cyl cg)) (ha : ∀ x ∈ L, g.geom.isInside (a x) = true) (T : F K) :
    ∃ g', L.foldlM (fun (s : Grid K × F K) x => do
        let g ← s.1.addTrajectoryValue p (a x) (b x) (v x)
        pure (g, s.2 + v x)) (g, T) = .ok (g', (L.map v).foldl (· + ·) T) ∧ g'.geom = g.geom ∧ g'.Shaped ∧
      ∀ c, g'.st.data.get c = (L.flatMap fun x => booked p g.geom (a x) (b x) (v x) c).foldl (· + ·) (g.st.data.get c) := by
  induction L generalizing g T with
  | nil =>
    refine ⟨g, by simp [run_pure], rfl, ?_, fun c => rfl⟩
    rcases hg with h | h
    · exact h.2.2
    · exact h.1.1
  | cons x L ih =>
    obtain ⟨g1, e1, e2, e3, e4⟩ := addTrajectory_booked p g hg (a x) (b x) (ha x (by simp)) (v x)
    have hg1 : IsCart g1 ∨ (g1.Fillable p ∧ ∃ cg, g1.geom = .cyl cg) := by
      rcases hg with h | ⟨h, h'⟩
      · exact Or.inl ⟨by rw [e2]; exact h.1, by rw [e2]; exact h.2.1, e3⟩
      · exact Or.inr ⟨⟨e3, by rw [e2]; exact h.2⟩, by rw [e2]; exact h'⟩
    obtain ⟨g', k1, k2, k3, k4⟩ := ih g1 hg1 (fun y hy => by rw [e2]; exact ha y (by simp [hy])) (T + v x)
    refine ⟨g', ?_, k2.trans e2, k3, fun c => ?_⟩
    · rw [List.foldlM_cons, e1, run_bind_ok, run_pure, run_bind_ok, k1, List.map_cons, List.foldl_cons]
    · rw [k4 c, e4 c, e2, List.flatMap_cons, List.foldl_append]

theorem mul_double [LawfulArith K] (a b : F K) (y : K) (h : a * b = fin y) : IsDouble y := by
  have hi : ∀ x : K, (F.infTimes x : F K) ≠ fin y := by
    intro x; unfold F.infTimes; split_ifs <;> simp
  cases a with
  | fin x => cases b with
    | fin z => exact double_of_rnd h
    | nan => cases h
    | pinf => exact absurd h (hi _)
    | ninf => exact absurd h (hi _)
  | nan => cases h
  | pinf => cases b with
    | fin z => exact absurd h (hi _)
    | nan => cases h
    | pinf => cases h
    | ninf => cases h
  | ninf => cases b with
    | fin z => exact absurd h (hi _)
    | nan => cases h
    | pinf => cases h
    | ninf => cases h

theorem zero_plus [LawfulArith K] (a : F K) (h : ∀ y, a = fin y → IsDouble y) : (0 : F K) + a = a := by
  cases a with
  | fin x =>
    have := h x rfl
    unfold IsDouble at this
    change Arith.rnd (0 + x) = _
    rw [zero_add, this]
  | nan => rfl
  | pinf => rfl
  | ninf => rfl

/-- The occupancy field in any arithmetic: of the samples in the timesteps `0 … n-4`, those that count book their step times; each cell is the sum of what was
booked in it over the sum of the step times. -/
theorem occupancy_sums [LawfulArith K] (p : Profile) (d : Dm (Timestep K)) (hd : d.CanLook) (hn : 3 ≤ d.n) (grid : Grid K)
    (hg : IsCart grid ∨ (grid.Fillable p ∧ ∃ cg, grid.geom = .cyl cg))
    (sel : Selector K) (hs : sel.Usable) (hw : ∀ t, t < d.n → (d.file t).Wf) (minV : F K) :
    ∃ d' g', occupancyfield p d grid sel minV = .ok (d', g') ∧ d'.CanLook ∧ d'.file = d.file ∧ d'.n = d.n ∧ g'.geom = grid.geom ∧ g'.Shaped ∧
      let C := (samples sel d.file (List.range (d.n - 3))).filter (counts d.file grid.geom minV)
      ∀ c, g'.st.data.get c = F.sum (C.flatMap fun x => booked p grid.geom (posOf d.file x) (nextOf d.file x) (stepTime d.file x.1) c) /
        F.sum (C.map fun x => stepTime d.file x.1) := by
  obtain ⟨d1, e1, hd1, hf1, hn1⟩ := Dm.setup_looking p Timestep.default d hd
  obtain ⟨d2, l2, hd2, hf2, hn2, e2⟩ := occupancyLoop_eq p sel hs grid minV (d1.n - 3) 0 d1 (by rw [hf1, hn1]; exact hw) 0 (by omega) hd1
    (by omega) (grid.newZeros, 0)
  set C := (samples sel d.file (List.range (d.n - 3))).filter (counts d.file grid.geom minV) with hC
  have hmem : ∀ x ∈ C, grid.geom.isInside (posOf d.file x) = true := by
    rintro ⟨t, i⟩ hx
    obtain ⟨h1, h2⟩ := List.mem_filter.1 hx
    unfold counts at h2
    simp only [Bool.and_eq_true, Bool.not_eq_true', decide_eq_false_iff_not] at h2
    exact h2.1.1.1
  have hz : IsCart grid.newZeros ∨ (grid.newZeros.Fillable p ∧ ∃ cg, grid.newZeros.geom = .cyl cg) := by
    rcases hg with h | ⟨h, h'⟩
    · exact Or.inl ⟨h.1, h.2.1, newZeros_shaped h.2.2⟩
    · exact Or.inr ⟨⟨newZeros_shaped h.1, h.2⟩, h'⟩
  obtain ⟨g1, k1, k2, k3, k4⟩ := booked_fold p C (posOf d.file) (nextOf d.file) (fun x => stepTime d.file x.1) grid.newZeros hz hmem 0
  have hbody : (samples sel d1.file (List.range' 0 (d1.n - 3))).foldlM
      (fun s x => occupancyBody p grid minV (d1.file (x.1 + 1)) s (d1.file x.1) x.2) (grid.newZeros, 0) =
      .ok (g1, F.sum (C.map fun x => stepTime d.file x.1)) := by
    rw [show F.sum (C.map fun x => stepTime d.file x.1) = (C.map fun x => stepTime d.file x.1).foldl (· + ·) 0 from rfl, ← k1, hf1, hn1, ← List.range_eq_range', hC]
    rw [← foldlM_filter_run]
    apply foldlM_congr
    rintro s ⟨t, i⟩ hx
    obtain ⟨ht, _, hi, _⟩ := (mem_samples _ _ _ _ _).1 hx
    have ht := List.mem_range.1 ht
    have hsp : (0 + (d.file t).vel i 0 * (d.file t).vel i 0 + (d.file t).vel i 1 * (d.file t).vel i 1 +
        (d.file t).vel i 2 * (d.file t).vel i 2).sqrt = (d.file t).speed i := by
      unfold Timestep.speed; rw [zero_plus _ (fun y => mul_double _ _ y)]
    unfold occupancyBody counts
    rw [at_pos hi, run_bind_ok]
    dsimp only
    by_cases c1 : grid.geom.isInside (posOf d.file (t, i)) = true
    · rw [if_neg (show ¬ grid.isInside ((d.file t).pos i) = false by
          have : grid.isInside ((d.file t).pos i) = true := c1
          rw [this]; simp), at_vel (hw t (by omega)) hi, run_bind_ok, hsp, c1]
      by_cases c2 : (d.file t).speed i < minV
      · rw [if_pos c2, decide_eq_true c2]; rfl
      · rw [if_neg c2, decide_eq_false c2]
        by_cases c3 : stepTime d.file t < 0
        · rw [decide_eq_true c3]
          unfold stepTime at c3
          rw [if_pos c3]; rfl
        · rw [decide_eq_false c3]
          unfold stepTime at c3 ⊢
          rw [if_neg c3]
          by_cases c4 : i < (d.file (t + 1)).position.length
          · rw [if_neg (by omega), at_pos c4, run_bind_ok, decide_eq_true c4]
            rfl
          · rw [if_pos (by omega), decide_eq_false c4]; rfl
    · have c1' : grid.geom.isInside (posOf d.file (t, i)) = false := by simpa using c1
      rw [if_pos (show grid.isInside ((d.file t).pos i) = false from c1'), c1']; rfl
  refine ⟨d2, g1.divideByScalar (F.sum (C.map fun x => stepTime d.file x.1)), ?_, hd2.canLook, hf2.trans hf1, hn2.trans hn1, k2, k3, ?_⟩
  · unfold occupancyfield
    rw [e1, run_bind_ok, stepsBut_eq p d1 hd1.1 (by omega), run_bind_ok, List.range_eq_range', e2, hbody, run_bind_ok, run_bind_ok]
    rfl
  · intro _ c
    have := k4 c
    change g1.st.data.get c / _ = _
    rw [this]
    rfl


/-! ### Errors -/

theorem quotient_close {u m A T N D k : K} (hu : 0 ≤ u) (hu1 : u ≤ 1 / 1000) (hm : 0 ≤ m) (hm1 : m ≤ 1 / 32) (hA : 0 ≤ A) (hT : 0 < T) (hk : 0 ≤ k)
    (hN : |N - A| ≤ (4 * m + 5 * u) * A + k) (hD : |D - T| ≤ (2 * m + 2 * u) * T) :
    0 < D ∧ |N / D - A / T| ≤ (7 * m + 8 * u) * (A / T) + 2 * (k / T) := by
  have hD1 : 9 / 10 * T ≤ D := by
    have := (abs_le.1 hD).1
    nlinarith [mul_le_mul_of_nonneg_right hm1 hT.le, mul_le_mul_of_nonneg_right hu1 hT.le]
  have hD0 : 0 < D := lt_of_lt_of_le (by positivity) hD1
  refine ⟨hD0, ?_⟩
  have hnum : |N * T - D * A| ≤ ((6 * m + 7 * u) * A + k) * T := by
    have e : N * T - D * A = (N - A) * T - (D - T) * A := by ring
    rw [e]
    calc |(N - A) * T - (D - T) * A| ≤ |(N - A) * T| + |(D - T) * A| := abs_sub _ _
      _ = |N - A| * T + |D - T| * A := by rw [abs_mul, abs_mul, abs_of_pos hT, abs_of_nonneg hA]
      _ ≤ ((4 * m + 5 * u) * A + k) * T + ((2 * m + 2 * u) * T) * A :=
          add_le_add (mul_le_mul_of_nonneg_right hN hT.le) (mul_le_mul_of_nonneg_right hD hA)
      _ = _ := by ring
  rw [div_sub_div _ _ hD0.ne' hT.ne', abs_div, abs_of_pos (mul_pos hD0 hT), div_le_iff₀ (mul_pos hD0 hT)]
  have e2 : ((7 * m + 8 * u) * (A / T) + 2 * (k / T)) * (D * T) = ((7 * m + 8 * u) * A + 2 * k) * D := by
    field_simp
  rw [e2]
  refine hnum.trans ?_
  have h1 : ((6 * m + 7 * u) * A + k) * T ≤ ((7 * m + 8 * u) * A + 2 * k) * (9 / 10 * T) := by
    have : (6 * m + 7 * u) * A + k ≤ ((7 * m + 8 * u) * A + 2 * k) * (9 / 10) := by
      nlinarith [mul_nonneg hm hA, mul_nonneg hu hA]
    nlinarith
  exact h1.trans (mul_le_mul_of_nonneg_left hD1 (by positivity))

/-- Lists that share out given amounts, with small errors. -/
theorem shared_out {α : Type} (L : List α) (B : α → List (F K)) (s : α → K) (δ κ : K) (k : ℕ)
    (h : ∀ x ∈ L, ∃ S : List K, B x = S.map fin ∧ (∀ v ∈ S, IsDouble v ∧ 0 ≤ v) ∧ S.length ≤ k ∧ |S.sum - s x| ≤ δ * s x + κ) :
    ∃ S : List K, L.flatMap B = S.map fin ∧ (∀ v ∈ S, IsDouble v ∧ 0 ≤ v) ∧ S.length ≤ k * L.length ∧
      |S.sum - (L.map s).sum| ≤ δ * (L.map s).sum + L.length * κ := by
  induction L with
  | nil => exact ⟨[], rfl, by simp, by simp, by simp⟩
  | cons x L ih =>
    obtain ⟨S, a1, a2, a3, a4⟩ := h x List.mem_cons_self
    obtain ⟨S', b1, b2, b3, b4⟩ := ih fun y hy => h y (List.mem_cons_of_mem _ hy)
    refine ⟨S ++ S', by rw [List.flatMap_cons, a1, b1, List.map_append], ?_, ?_, ?_⟩
    · intro v hv
      rcases List.mem_append.1 hv with hv | hv
      · exact a2 v hv
      · exact b2 v hv
    · rw [List.length_append, List.length_cons, Nat.mul_succ]; omega
    · rw [List.sum_append, List.map_cons, List.sum_cons, List.length_cons]
      have : S.sum + S'.sum - (s x + (L.map s).sum) = (S.sum - s x) + (S'.sum - (L.map s).sum) := by ring
      rw [this]
      refine (abs_add_le _ _).trans ((add_le_add a4 b4).trans (le_of_eq ?_))
      push_cast
      ring

/-- The sum of a list of nonnegative numbers near `A`, computed with rounding. -/
theorem shared_sum [LawfulArith K] [RoundedArith K] (S : List K) (hS : ∀ v ∈ S, IsDouble v ∧ 0 ≤ v) (n j : ℕ) (hlen : S.length ≤ j * n) (hj : j * n ≤ 2 ^ 52)
    (A δ κ : K) (hA : |S.sum - A| ≤ δ * A + κ) (hfit : S.sum ≤ huge K / 2) :
    ∃ N, F.sum (S.map fin) = fin N ∧ 0 ≤ N ∧ |N - A| ≤ 2 * (j * n * roundoff K) * ((1 + δ) * A + κ) + δ * A + κ := by
  have h0 : 0 ≤ S.sum := List.sum_nonneg fun v hv => (hS v hv).2
  have habs : (S.map fun v => |v|) = S := by
    conv_rhs => rw [← List.map_id S]
    exact List.map_congr_left fun v hv => abs_of_nonneg (hS v hv).2
  obtain ⟨N, h1, _, h3⟩ := sum_accurate S (fun v hv => (hS v hv).1) (hlen.trans hj) (by rw [habs]; exact hfit)
  rw [habs] at h3
  have hg : (1 + roundoff K) ^ S.length - 1 ≤ 2 * (j * n * roundoff K) := by
    have g1 := growth (K := K) S.length (hlen.trans hj)
    have g2 : (S.length : K) ≤ j * n := by exact_mod_cast hlen
    have g3 : (S.length : K) / 2 ^ 52 = 2 * (S.length * roundoff K) := by unfold roundoff; ring
    rw [g3] at g1
    have := mul_le_mul_of_nonneg_right g2 (roundoff_pos (K := K)).le
    linarith
  have hgj : 0 ≤ 2 * (j * n * roundoff K : K) := by have := roundoff_pos (K := K); positivity
  have h4 : |N - S.sum| ≤ 2 * (j * n * roundoff K) * S.sum := h3.trans (mul_le_mul_of_nonneg_right hg h0)
  have hcap : (2 * (j * n * roundoff K) : K) ≤ 1 := by
    have : ((j * n : ℕ) : K) ≤ 2 ^ 52 := by exact_mod_cast hj
    unfold roundoff
    push_cast at this
    rw [mul_one_div, mul_div_assoc', div_le_one (by positivity)]
    calc 2 * ((j : K) * n) ≤ 2 * 2 ^ 52 := by linarith
      _ = 2 ^ 53 := by norm_num
  refine ⟨N, h1, ?_, ?_⟩
  · have := (abs_le.1 h4).1
    nlinarith
  · have hS2 : S.sum ≤ (1 + δ) * A + κ := by
      have := (abs_le.1 hA).2
      linarith
    calc |N - A| = |(N - S.sum) + (S.sum - A)| := by congr 1; ring
      _ ≤ |N - S.sum| + |S.sum - A| := abs_add_le _ _
      _ ≤ 2 * (j * n * roundoff K) * S.sum + (δ * A + κ) := add_le_add h4 hA
      _ ≤ 2 * (j * n * roundoff K) * ((1 + δ) * A + κ) + (δ * A + κ) := by
          have := mul_le_mul_of_nonneg_left hS2 hgj
          linarith
      _ = _ := by ring

theorem half_near [LawfulArith K] [RoundedArith K] {t D : K} (ht : 0 ≤ t) (hD : 0 ≤ D) (h : |t - D| ≤ roundoff K * D) (hb : D ≤ large K) :
    ∃ y, fin t * F.lit (1 / 2) = fin y ∧ IsDouble y ∧ 0 ≤ y ∧ |y - D / 2| ≤ 4 * roundoff K * (D / 2) + 2 * tiny K := by
  have hl : (F.lit (1 / 2) : F K) = fin (1 / 2) := by
    have := LawfulArith.rnd_dyadic (K := K) 1 1 (by norm_num) (by norm_num)
    unfold F.lit
    simpa using this
  have hu := roundoff_pos (K := K)
  have hu1 := roundoff_le (K := K)
  have ht2 : t ≤ 2 * D := by
    have := (abs_le.1 h).2
    nlinarith
  have hfit : |t * (1 / 2)| ≤ huge K := by
    rw [abs_of_nonneg (by positivity)]
    have h1 := large_huge (K := K)
    have h2 := one_le_large (K := K)
    nlinarith
  obtain ⟨y, e⟩ := RoundedArith.rnd_finite (K := K) (t * (1 / 2)) hfit
  have he := RoundedArith.rnd_err _ _ e
  refine ⟨y, by rw [hl]; exact e, double_of_rnd e, ?_, ?_⟩
  · have := LawfulArith.rnd_mono (K := K) 0 (t * (1 / 2)) (by positivity)
    rw [e, F.rnd_zero, F.le_fin] at this
    exact this
  · rw [abs_of_nonneg (show 0 ≤ t * (1 / 2) by positivity)] at he
    have e2 : y - D / 2 = (y - t * (1 / 2)) + (t - D) / 2 := by ring
    rw [e2]
    refine (abs_add_le _ _).trans ?_
    rw [abs_div, abs_of_pos (show (0 : K) < 2 by norm_num)]
    have := tiny_pos (K := K)
    nlinarith

/-- What a counted step books in a cell. -/
theorem booked_near [LawfulArith K] [RoundedArith K] (p : Profile) (g : Geom K) (a b : Pos K) (c : CellId) {t D : K} (hd : IsDouble t) (ht : 0 ≤ t) (hD : 0 ≤ D)
    (h : |t - D| ≤ roundoff K * D) (hb : D ≤ large K) :
    ∃ S : List K, booked p g a b (fin t) c = S.map fin ∧ (∀ v ∈ S, IsDouble v ∧ 0 ≤ v) ∧ S.length ≤ 2 ∧
      |S.sum - D * share p g a b c| ≤ 4 * roundoff K * (D * share p g a b c) + 4 * tiny K := by
  have hty := tiny_pos (K := K)
  have hu := roundoff_pos (K := K)
  have hnone : ∃ S : List K, ([] : List (F K)) = S.map fin ∧ (∀ v ∈ S, IsDouble v ∧ 0 ≤ v) ∧ S.length ≤ 2 ∧ |S.sum - D * 0| ≤ 4 * roundoff K * (D * 0) + 4 * tiny K :=
    ⟨[], rfl, by simp, by simp, by simp; positivity⟩
  unfold booked share
  cases g with
  | cart cg =>
    dsimp only
    cases h1 : (Geom.cart cg).lookup p a with
    | none => exact hnone
    | some c1 =>
      cases h2 : (Geom.cart cg).lookup p b with
      | none => exact hnone
      | some c2 =>
        obtain ⟨y, e, y1, y2, y3⟩ := half_near ht hD h hb
        rw [e]
        dsimp only
        by_cases k1 : c1 = c
        · by_cases k2 : c2 = c
          · refine ⟨[y, y], by rw [if_pos k1, if_pos k2]; rfl, by simpa using ⟨y1, y2⟩, by simp, ?_⟩
            rw [if_pos k1, if_pos k2]
            have : [y, y].sum - D * (1 / 2 + 1 / 2) = 2 * (y - D / 2) := by simp; ring
            rw [this, abs_mul, abs_of_pos (show (0 : K) < 2 by norm_num)]
            linarith
          · refine ⟨[y], by rw [if_pos k1, if_neg k2]; rfl, by simpa using ⟨y1, y2⟩, by simp, ?_⟩
            rw [if_pos k1, if_neg k2]
            have : [y].sum - D * (1 / 2 + 0) = y - D / 2 := by simp; ring
            rw [this]
            linarith
        · by_cases k2 : c2 = c
          · refine ⟨[y], by rw [if_neg k1, if_pos k2]; rfl, by simpa using ⟨y1, y2⟩, by simp, ?_⟩
            rw [if_neg k1, if_pos k2]
            have : [y].sum - D * (0 + 1 / 2) = y - D / 2 := by simp; ring
            rw [this]
            linarith
          · rw [if_neg k1, if_neg k2, if_neg k1, if_neg k2, add_zero]
            exact hnone
  | cyl cg =>
    dsimp only
    by_cases k1 : (Geom.cyl cg).lookup p a = some c
    · rw [if_pos k1, if_pos k1]
      refine ⟨[t], rfl, by simpa using ⟨hd, ht⟩, by simp, ?_⟩
      simp only [List.sum_cons, List.sum_nil, add_zero, mul_one]
      have := mul_nonneg hu.le hD
      linarith
    · rw [if_neg k1, if_neg k1]
      exact hnone

/-- The duration of a step between stored times, computed with rounding. -/
theorem step_near [LawfulArith K] [RoundedArith K] {a b : K} (ha : IsDouble a) (hb : IsDouble b) (ha1 : |a| ≤ 2 ^ 499) (hb1 : |b| ≤ 2 ^ 499) :
    ∃ t, (fin b - fin a : F K) = fin t ∧ IsDouble t ∧ |t - (b - a)| ≤ roundoff K * |b - a| ∧ |b - a| ≤ large K := by
  have hl : |b - a| ≤ large K := by
    refine (abs_sub _ _).trans ((add_le_add hb1 ha1).trans (le_of_eq ?_))
    unfold large
    rw [← two_mul, ← pow_succ']
  have hneg : IsDouble (-a) := by
    unfold IsDouble at ha ⊢
    rw [LawfulArith.rnd_neg, ha]
    rfl
  have hfit : |b + -a| ≤ huge K := by
    rw [← sub_eq_add_neg]
    have h1 := large_huge (K := K)
    have h2 := one_le_large (K := K)
    nlinarith
  obtain ⟨t, e⟩ := RoundedArith.rnd_finite (K := K) _ hfit
  have he := RoundedArith.add_err _ _ _ hb hneg e
  rw [← sub_eq_add_neg] at he
  refine ⟨t, ?_, double_of_rnd e, he, hl⟩
  rw [← e]
  rfl

/-- The sums of durations never overflow. -/
theorem durations_fit [LawfulArith K] [RoundedArith K] (n : ℕ) (hn : n ≤ 2 ^ 48) : 8 * (n * large K) + 8 ≤ huge K / 2 := by
  have h1 := large_huge (K := K)
  have h2 := one_le_large (K := K)
  have h3 : (n : K) ≤ 2 ^ 48 := by exact_mod_cast hn
  have h4 : (2 : K) ^ 48 * 2 ^ 10 ≤ large K := by
    unfold large
    rw [← pow_add]
    exact pow_le_pow_right₀ (by norm_num) (by norm_num)
  have h5 : (n : K) * 2 ^ 10 ≤ large K := (mul_le_mul_of_nonneg_right h3 (by positivity)).trans h4
  have h6 : (n : K) * 2 ^ 10 * large K ≤ large K * large K := mul_le_mul_of_nonneg_right h5 (by linarith)
  have h7 : large K ≤ large K * large K := by nlinarith
  nlinarith

theorem specks_small (n : ℕ) (hn : n ≤ 2 ^ 48) {T : K} (hT : 1 / 2 ^ 500 ≤ T) : 8 * (n * tiny K) / T ≤ 1 / 2 ^ 510 ∧ (n : K) * tiny K ≤ 1 := by
  have hT0 : 0 < T := lt_of_lt_of_le (by positivity) hT
  have hnK : (n : K) ≤ 2 ^ 48 := by exact_mod_cast hn
  have hk : (n : K) * tiny K ≤ 1 / 2 ^ 1027 := by
    refine (mul_le_mul_of_nonneg_right hnK tiny_pos.le).trans (le_of_eq ?_)
    unfold tiny
    rw [mul_one_div, div_eq_div_iff (by positivity) (by positivity), ← pow_add, one_mul]
  refine ⟨?_, hk.trans (div_le_one_of_le₀ (one_le_pow₀ (by norm_num)) (by positivity))⟩
  rw [div_le_iff₀ hT0]
  calc 8 * (n * tiny K) ≤ 8 * (1 / 2 ^ 1027) := mul_le_mul_of_nonneg_left hk (by norm_num)
    _ ≤ 1 / 2 ^ 510 * (1 / 2 ^ 500) := by
      rw [one_div_mul_one_div, ← pow_add, mul_one_div, div_le_div_iff₀ (by positivity) (by positivity)]
      calc (8 : K) * 2 ^ (510 + 500) = 2 ^ 1013 := by
            rw [show (8 : K) = 2 ^ 3 by norm_num, ← pow_add]
        _ ≤ 1 * 2 ^ 1027 := by rw [one_mul]; exact pow_le_pow_right₀ (by norm_num) (by norm_num)
    _ ≤ 1 / 2 ^ 510 * T := mul_le_mul_of_nonneg_left hT (by positivity)

theorem specks_sum : tiny K ≤ 1 / 2 ^ 510 ∧ (4 : K) * (1 / 2 ^ 510) ≤ 1 / 2 ^ 500 ∧ (1 : K) / 2 ^ 510 ≤ 1 := by
  refine ⟨?_, ?_, div_le_one_of_le₀ (one_le_pow₀ (by norm_num)) (by positivity)⟩
  · unfold tiny
    exact one_div_le_one_div_of_le (by positivity) (pow_le_pow_right₀ (by norm_num) (by norm_num))
  · rw [mul_one_div, div_le_div_iff₀ (by positivity) (by positivity), one_mul]
    calc (4 : K) * 2 ^ 500 = 2 ^ 502 := by rw [show (4 : K) = 2 ^ 2 by norm_num, ← pow_add]
      _ ≤ 2 ^ 510 := pow_le_pow_right₀ (by norm_num) (by norm_num)

theorem sharing_small (n : ℕ) (hn : n ≤ 2 ^ 48) : (n : K) * roundoff K ≤ 1 / 32 := by
  have hnK : (n : K) ≤ 2 ^ 48 := by exact_mod_cast hn
  refine (mul_le_mul_of_nonneg_right hnK roundoff_pos.le).trans (le_of_eq ?_)
  unfold roundoff
  rw [mul_one_div, div_eq_div_iff (by positivity) (by norm_num)]
  norm_num

theorem share_near_aux [LawfulArith K] [RoundedArith K] {u m N D A T κ k w1 w5 : K} (hu : 0 ≤ u) (hu1 : u ≤ 1 / 1000) (hm : 0 ≤ m) (hm1 : m ≤ 1 / 32) (hA : 0 ≤ A)
    (hAT : A ≤ T) (hT : 0 < T) (hk : 0 ≤ k) (hN0 : 0 ≤ N) (hN : |N - A| ≤ (4 * m + 5 * u) * A + k) (hD : |D - T| ≤ (2 * m + 2 * u) * T)
    (hκ : κ = k / T) (hκ1 : κ ≤ w1) (hw1 : w1 ≤ 1) (hw5 : 4 * w1 ≤ w5) (ht : tiny K ≤ w1) (huu : u = roundoff K) :
    ∃ y, fin N / fin D = (fin y : F K) ∧ 0 ≤ y ∧ |y - A / T| ≤ (8 * m + 16 * u) * (A / T) + w5 := by
  obtain ⟨q1, q2⟩ := quotient_close hu hu1 hm hm1 hA hT hk hN hD
  rw [← hκ] at q2
  have hκ0 : 0 ≤ κ := by rw [hκ]; positivity
  set q := A / T with hq
  have hq0 : 0 ≤ q := div_nonneg hA hT.le
  have hq1 : q ≤ 1 := by rw [hq, div_le_one hT]; exact hAT
  have hqb : N / D ≤ 2 * q + 2 * κ := by
    have := (abs_le.1 q2).2
    nlinarith [mul_le_mul_of_nonneg_right hm1 hq0, mul_le_mul_of_nonneg_right hu1 hq0]
  have hq3 : 0 ≤ N / D := div_nonneg hN0 q1.le
  have hhuge : |N / D| ≤ huge K := by
    rw [abs_of_nonneg hq3]
    have h1 := large_huge (K := K)
    have h2 := one_le_large (K := K)
    nlinarith
  obtain ⟨y, ey⟩ := RoundedArith.rnd_finite (K := K) (N / D) hhuge
  have hye := RoundedArith.rnd_err _ _ ey
  rw [abs_of_nonneg hq3, ← huu] at hye
  refine ⟨y, ?_, ?_, ?_⟩
  · rw [F.div_fin_ne _ q1.ne']
    exact ey
  · have := LawfulArith.rnd_mono (K := K) 0 (N / D) hq3
    rw [ey, F.rnd_zero, F.le_fin] at this
    exact this
  · have e : y - q = (y - N / D) + (N / D - q) := by ring
    rw [e]
    refine (abs_add_le _ _).trans ((add_le_add hye q2).trans ?_)
    have i1 := mul_le_mul_of_nonneg_left hqb hu
    have i2 : u * κ ≤ 1 / 1000 * κ := mul_le_mul_of_nonneg_right hu1 hκ0
    have i3 : 0 ≤ m * q := mul_nonneg hm hq0
    have i4 : 0 ≤ u * q := mul_nonneg hu hq0
    nlinarith

set_option maxHeartbeats 1000000 in
/-- Two lists of nonnegative durations near `A` and `T`: the quotient of their sums, computed with rounding. -/
theorem share_near [LawfulArith K] [RoundedArith K] (S R : List K) (hS : ∀ v ∈ S, IsDouble v ∧ 0 ≤ v) (hR : ∀ v ∈ R, IsDouble v ∧ 0 ≤ v) (n : ℕ) (hn : n ≤ 2 ^ 48)
    (hS1 : S.length ≤ 2 * n) (hR1 : R.length ≤ 1 * n) (A T : K) (hA : 0 ≤ A) (hAT : A ≤ T) (hT : 1 / 2 ^ 500 ≤ T) (hTb : T ≤ n * large K)
    (hSA : |S.sum - A| ≤ 4 * roundoff K * A + n * (4 * tiny K)) (hRT : |R.sum - T| ≤ roundoff K * T + n * 0) :
    ∃ y, F.sum (S.map fin) / F.sum (R.map fin) = fin y ∧ 0 ≤ y ∧ |y - A / T| ≤ (n + 2) / 2 ^ 50 * (A / T) + 1 / 2 ^ 500 := by
  have hu := roundoff_pos (K := K)
  have hu1 : roundoff K ≤ 1 / 1000 := by
    unfold roundoff
    exact one_div_le_one_div_of_le (by norm_num) (by norm_num)
  have hty := tiny_pos (K := K)
  have hT0 : 0 < T := lt_of_lt_of_le (by positivity) hT
  have hn0 : (0 : K) ≤ n := Nat.cast_nonneg n
  have hfit := durations_fit (K := K) n hn
  have hm1 := sharing_small (K := K) n hn
  obtain ⟨hκ1, hkt⟩ := specks_small n hn hT
  obtain ⟨w1, w2, w3⟩ := specks_sum (K := K)
  have hgoal : ((n : K) + 2) / 2 ^ 50 * (A / T) = (8 * (n * roundoff K) + 16 * roundoff K) * (A / T) := by
    have : ((n : K) + 2) / 2 ^ 50 = 8 * (n * roundoff K) + 16 * roundoff K := by
      unfold roundoff; ring
    rw [this]
  rw [hgoal]
  clear hT
  generalize (1 : K) / 2 ^ 500 = w5 at *
  generalize (1 : K) / 2 ^ 510 = w1' at *
  have hk0 : 0 ≤ (n : K) * tiny K := by positivity
  obtain ⟨N, n1, n2, n3⟩ := shared_sum S hS n 2 hS1 (by omega) A (4 * roundoff K) (n * (4 * tiny K)) hSA (by
    have := (abs_le.1 hSA).2
    nlinarith)
  obtain ⟨D, d1, d2, d3⟩ := shared_sum R hR n 1 hR1 (by omega) T (roundoff K) (n * 0) hRT (by
    have := (abs_le.1 hRT).2
    nlinarith)
  set m : K := n * roundoff K with hm
  have hm0 : 0 ≤ m := by positivity
  have hN : |N - A| ≤ (4 * m + 5 * roundoff K) * A + 8 * (n * tiny K) := by
    refine n3.trans ?_
    push_cast
    rw [show (2 : K) * (2 * n * roundoff K) = 4 * m by rw [hm]; ring]
    have e1 : 4 * m * ((1 + 4 * roundoff K) * A + n * (4 * tiny K)) ≤ 4 * m * A + roundoff K * A + 4 * (n * tiny K) := by
      have i1 : m * (roundoff K * A) ≤ 1 / 32 * (roundoff K * A) := mul_le_mul_of_nonneg_right hm1 (by positivity)
      have i2 : m * (n * tiny K) ≤ 1 / 32 * (n * tiny K) := mul_le_mul_of_nonneg_right hm1 hk0
      have i3 : 0 ≤ roundoff K * A := by positivity
      linarith
    linarith
  have hD : |D - T| ≤ (2 * m + 2 * roundoff K) * T := by
    refine d3.trans ?_
    push_cast
    rw [show (2 : K) * (1 * n * roundoff K) = 2 * m by rw [hm]; ring, mul_zero, add_zero, add_zero]
    have i1 : m * (roundoff K * T) ≤ 1 / 32 * (roundoff K * T) := mul_le_mul_of_nonneg_right hm1 (by positivity)
    have i3 : 0 ≤ roundoff K * T := by positivity
    linarith
  rw [n1, d1]
  exact share_near_aux hu.le hu1 hm0 hm1 hA hAT hT0 (by positivity) n2 hN hD rfl hκ1 w3 w2 w1 rfl

/-- A time an `f64` holds, not larger than `2^499`. -/
def StoredTime (x : F K) (t : K) : Prop := x = fin t ∧ IsDouble t ∧ |t| ≤ 2 ^ 499

/-- **C142, every cell.** With rounding: at most `2^48` counted samples that take up a time `T` of at least `2^-500`, of stored times. Every cell of the occupancy field is
finite and nonnegative, and differs from the share of the time spent in the cell by at most a relative error `(n+2)/2^50`, `n` the number of counted samples, and `2^-500`. -/
theorem C142_cells [LawfulArith K] [RoundedArith K] (p : Profile) (d : Dm (Timestep K)) (hd : d.CanLook) (hn : 3 ≤ d.n) (τ : ℕ → K)
    (hτ : ∀ t, t < d.n → StoredTime (d.file t).time (τ t)) (grid : Grid K) (hg : IsCart grid ∨ (grid.Fillable p ∧ ∃ cg, grid.geom = .cyl cg))
    (sel : Selector K) (hs : sel.Usable) (hw : ∀ t, t < d.n → (d.file t).Wf) (minV : F K)
    (hlen : ((samples sel d.file (List.range (d.n - 3))).filter (counts d.file grid.geom minV)).length ≤ 2 ^ 48)
    (hT : 1 / 2 ^ 500 ≤ ((((samples sel d.file (List.range (d.n - 3))).filter (counts d.file grid.geom minV)).map fun x => τ (x.1 + 1) - τ x.1).sum : K)) :
    ∃ d' g', occupancyfield p d grid sel minV = .ok (d', g') ∧ g'.geom = grid.geom ∧ g'.Shaped ∧
      let C := (samples sel d.file (List.range (d.n - 3))).filter (counts d.file grid.geom minV)
      let dt := fun x : ℕ × ℕ => τ (x.1 + 1) - τ x.1
      (∀ x ∈ C, 0 ≤ dt x ∧ grid.isInside (posOf d.file x) = true) ∧
      ∀ c, InB grid.geom.cells c → ∃ y, g'.st.data.get c = fin y ∧ 0 ≤ y ∧
        let s := (C.map fun x => dt x * share p grid.geom (posOf d.file x) (nextOf d.file x) c).sum / (C.map dt).sum
        |y - s| ≤ (C.length + 2) / 2 ^ 50 * s + 1 / 2 ^ 500 := by
  obtain ⟨d', g', h1, _, _, _, h4, h5, h6⟩ := occupancy_sums p d hd hn grid hg sel hs hw minV
  have hsound : grid.geom.Sound p := by
    rcases hg with h | h
    · exact (fillable_cart p grid h).2
    · exact h.1.2
  set C := (samples sel d.file (List.range (d.n - 3))).filter (counts d.file grid.geom minV) with hC
  set dt := fun x : ℕ × ℕ => τ (x.1 + 1) - τ x.1 with hdt
  have hstep : ∀ x ∈ C, ∃ t, stepTime d.file x.1 = fin t ∧ IsDouble t ∧ 0 ≤ t ∧ 0 ≤ dt x ∧ |t - dt x| ≤ roundoff K * dt x ∧ dt x ≤ large K ∧
      grid.geom.isInside (posOf d.file x) = true := by
    rintro ⟨t, i⟩ hx
    obtain ⟨k1, k2⟩ := List.mem_filter.1 hx
    obtain ⟨ht, _⟩ := (mem_samples _ _ _ _ _).1 k1
    have ht := List.mem_range.1 ht
    unfold counts at k2
    simp only [Bool.and_eq_true, Bool.not_eq_true', decide_eq_false_iff_not] at k2
    obtain ⟨⟨⟨h3, _⟩, h4⟩, _⟩ := k2
    obtain ⟨a1, a2, a3⟩ := hτ t (by omega)
    obtain ⟨b1, b2, b3⟩ := hτ (t + 1) (by omega)
    obtain ⟨y, e1, e2, e3, e4⟩ := step_near a2 b2 a3 b3
    have e : stepTime d.file t = fin y := by unfold stepTime; rw [a1, b1, e1]
    have hy : 0 ≤ y := by
      rw [e, F.zero_def, F.lt_fin, not_lt] at h4
      exact h4
    have hpos : 0 ≤ τ (t + 1) - τ t := by
      by_contra hneg
      rw [not_le] at hneg
      rw [abs_of_neg hneg] at e3
      have := (abs_le.1 e3).2
      have := roundoff_le (K := K)
      nlinarith
    rw [abs_of_nonneg hpos] at e3 e4
    exact ⟨y, e, e2, hy, hpos, e3, e4, h3⟩
  refine ⟨d', g', h1, h4, h5, fun x hx => ?_, fun c hcb => ?_⟩
  · obtain ⟨_, _, _, _, a, _, _, b⟩ := hstep x hx
    exact ⟨a, b⟩
  · rw [h6 c]
    obtain ⟨S, s1, s2, s3, s4⟩ := shared_out C (fun x => booked p grid.geom (posOf d.file x) (nextOf d.file x) (stepTime d.file x.1) c)
      (fun x => dt x * share p grid.geom (posOf d.file x) (nextOf d.file x) c) (4 * roundoff K) (4 * tiny K) 2 (by
        intro x hx
        obtain ⟨t, e, e1, e2, e3, e4, e5, _⟩ := hstep x hx
        rw [e]
        exact booked_near p grid.geom _ _ c e1 e2 e3 e4 e5)
    obtain ⟨R, r1, r2, r3, r4⟩ := shared_out C (fun x => [stepTime d.file x.1]) dt (roundoff K) 0 1 (by
        intro x hx
        obtain ⟨t, e, e1, e2, e3, e4, e5, _⟩ := hstep x hx
        rw [e]
        refine ⟨[t], rfl, by simpa using ⟨e1, e2⟩, by simp, by simpa using e4⟩)
    have r1' : (C.map fun x => stepTime d.file x.1) = R.map fin := by
      rw [← r1, List.map_eq_flatMap]
    rw [s1, r1']
    have hterm : ∀ x ∈ C, 0 ≤ dt x * share p grid.geom (posOf d.file x) (nextOf d.file x) c ∧
        dt x * share p grid.geom (posOf d.file x) (nextOf d.file x) c ≤ dt x := by
      intro x hx
      obtain ⟨_, _, _, _, a, _, _, b⟩ := hstep x hx
      have i1 := share_nonneg p grid.geom (posOf d.file x) (nextOf d.file x) c
      have i2 : share p grid.geom (posOf d.file x) (nextOf d.file x) c ≤ 1 :=
        (Finset.single_le_sum (f := fun c => share p grid.geom (posOf d.file x) (nextOf d.file x) c) (fun c _ => share_nonneg p grid.geom _ _ c)
          ((mem_cellsOf _ _).2 hcb)).trans (share_sum_le p grid.geom hsound _ _ b)
      exact ⟨mul_nonneg a i1, mul_le_of_le_one_right a i2⟩
    refine share_near S R s2 r2 C.length hlen s3 r3 _ _ ?_ ?_ hT ?_ s4 r4
    · refine List.sum_nonneg fun y hy => ?_
      obtain ⟨x, hx, rfl⟩ := List.mem_map.1 hy
      exact (hterm x hx).1
    · exact sums_le C _ _ fun x hx => (hterm x hx).2
    · have : (C.map dt).sum ≤ (C.map fun _ => large K).sum := sums_le C _ _ fun x hx => by
        obtain ⟨_, _, _, _, _, _, a, _⟩ := hstep x hx
        exact a
      rwa [List.map_const', List.sum_replicate, nsmul_eq_mul] at this

/-- **C142, the whole grid.** If every counted step ends inside the grid, the cells add up to 1 up to `(n+2)/2^50` and `2^-500` for every cell. -/
theorem C142_total [LawfulArith K] [RoundedArith K] (p : Profile) (d : Dm (Timestep K)) (hd : d.CanLook) (hn : 3 ≤ d.n) (τ : ℕ → K)
    (hτ : ∀ t, t < d.n → StoredTime (d.file t).time (τ t)) (grid : Grid K) (hg : IsCart grid ∨ (grid.Fillable p ∧ ∃ cg, grid.geom = .cyl cg))
    (sel : Selector K) (hs : sel.Usable) (hw : ∀ t, t < d.n → (d.file t).Wf) (minV : F K)
    (hlen : ((samples sel d.file (List.range (d.n - 3))).filter (counts d.file grid.geom minV)).length ≤ 2 ^ 48)
    (hT : 1 / 2 ^ 500 ≤ ((((samples sel d.file (List.range (d.n - 3))).filter (counts d.file grid.geom minV)).map fun x => τ (x.1 + 1) - τ x.1).sum : K))
    (hin : ∀ x ∈ samples sel d.file (List.range (d.n - 3)), counts d.file grid.geom minV x = true →
      grid.isInside (nextOf d.file x) = true ∨ ∃ cg, grid.geom = .cyl cg) :
    ∃ (d' : Dm (Timestep K)) (g' : Grid K) (O : CellId → K), occupancyfield p d grid sel minV = .ok (d', g') ∧
      (∀ c, InB grid.geom.cells c → g'.st.data.get c = fin (O c) ∧ 0 ≤ O c) ∧
      |∑ c ∈ cellsOf grid.geom.cells, O c - 1| ≤
        (((samples sel d.file (List.range (d.n - 3))).filter (counts d.file grid.geom minV)).length + 2) / 2 ^ 50 + (cellsOf grid.geom.cells).card / 2 ^ 500 := by
  obtain ⟨d', g', h1, _, _, hC, h6⟩ := C142_cells p d hd hn τ hτ grid hg sel hs hw minV hlen hT
  have hsound : grid.geom.Sound p := by
    rcases hg with h | h
    · exact (fillable_cart p grid h).2
    · exact h.1.2
  set C := (samples sel d.file (List.range (d.n - 3))).filter (counts d.file grid.geom minV) with hCdef
  set dt := fun x : ℕ × ℕ => τ (x.1 + 1) - τ x.1 with hdt
  have hT0 : 0 < (C.map dt).sum := lt_of_lt_of_le (by positivity) hT
  have hex : ∀ c, ∃ y, InB grid.geom.cells c → g'.st.data.get c = fin y ∧ 0 ≤ y ∧
      |y - (C.map fun x => dt x * share p grid.geom (posOf d.file x) (nextOf d.file x) c).sum / (C.map dt).sum| ≤
        (C.length + 2) / 2 ^ 50 * ((C.map fun x => dt x * share p grid.geom (posOf d.file x) (nextOf d.file x) c).sum / (C.map dt).sum) + 1 / 2 ^ 500 := by
    intro c
    by_cases h : InB grid.geom.cells c
    · obtain ⟨y, k1, k2, k3⟩ := h6 c h
      exact ⟨y, fun _ => ⟨k1, k2, k3⟩⟩
    · exact ⟨0, fun h' => absurd h' h⟩
  choose O hO using hex
  refine ⟨d', g', O, h1, fun c hc => ⟨(hO c hc).1, (hO c hc).2.1⟩, ?_⟩
  set s : CellId → K := fun c => (C.map fun x => dt x * share p grid.geom (posOf d.file x) (nextOf d.file x) c).sum / (C.map dt).sum with hsdef
  have hone : ∑ c ∈ cellsOf grid.geom.cells, s c = 1 := by
    have hsum : ∑ c ∈ cellsOf grid.geom.cells, s c =
        (C.map fun x => dt x * ∑ c ∈ cellsOf grid.geom.cells, share p grid.geom (posOf d.file x) (nextOf d.file x) c).sum / (C.map dt).sum := by
      rw [hsdef, ← Finset.sum_div, sum_list_swap]
      simp only [Finset.mul_sum]
    rw [hsum, div_eq_one_iff_eq hT0.ne']
    congr 1
    apply List.map_congr_left
    intro x hx
    obtain ⟨g1, g2⟩ := List.mem_filter.1 hx
    rw [share_sum p grid.geom hsound _ _ (hC x hx).2 (hin x g1 g2), mul_one]
  have hdiff : ∑ c ∈ cellsOf grid.geom.cells, O c - 1 = ∑ c ∈ cellsOf grid.geom.cells, (O c - s c) := by
    rw [Finset.sum_sub_distrib, hone]
  rw [hdiff]
  refine (Finset.abs_sum_le_sum_abs _ _).trans ((Finset.sum_le_sum fun c hc => (hO c ((mem_cellsOf _ _).1 hc)).2.2).trans (le_of_eq ?_))
  rw [Finset.sum_add_distrib, ← Finset.mul_sum, hone, mul_one, Finset.sum_const, nsmul_eq_mul, mul_one_div]

/-! ### A case in binary64 -/

/-- One particle that stays at the origin, at the times 0, 1, 2, 3. -/
noncomputable def staying (t : ℕ) : Timestep B64 :=
  ⟨fin t, [fun _ => fin 0], [![fin 1, fin 0, fin 0]], [fin 1], [fin 1], [fin 0], [fin 0], [fin 0]⟩

theorem staying_samples : samples Selector.default staying (List.range 1) = [(0, 0)] := by
  have ht : (Selector.default : Selector B64).timestepValid (staying 0).time = true := by
    have := one_time (K := B64)
    unfold staying oneStep at *
    simpa using this
  rw [show List.range 1 = [0] from rfl]
  unfold samples Timestep.picks
  simp only [List.flatMap_cons, List.flatMap_nil, ht, if_true]
  simp [staying, chosen_default]

theorem staying_inside : (unitGrid (K := B64)).geom.isInside (fun _ => fin 0) = true :=
  (cart_inside _ _ _ (fun _ => 0)).2 fun _ => ⟨le_rfl, zero_le_one⟩

theorem staying_counts : counts staying (unitGrid (K := B64)).geom (fin 0) (0, 0) = true := by
  have hs : (staying 0).speed 0 = (fin 1 * fin 1 + fin 0 * fin 0 + fin 0 * fin 0 : F B64).sqrt := rfl
  have hsp : ¬ (staying 0).speed 0 < (fin 0 : F B64) := by
    rw [hs, F.mul_fin, mul_one, F.rnd_one, F.mul_fin, mul_zero, F.rnd_zero, F.add_fin, add_zero, F.rnd_one, F.add_fin, add_zero, F.rnd_one]
    apply F.not_lt_of_le'
    have := LawfulArith.sqrt_nonneg (K := B64) 1 zero_le_one
    unfold F.sqrt
    dsimp only
    rw [if_neg (by norm_num)]
    exact this
  have hst : ¬ stepTime staying 0 < 0 := by
    have : stepTime staying 0 = (fin 1 : F B64) := by
      unfold stepTime
      change (fin ((0 + 1 : ℕ) : B64) - fin ((0 : ℕ) : B64) : F B64) = _
      rw [F.sub_fin, show (((0 + 1 : ℕ) : B64) - ((0 : ℕ) : B64)) = 1 by norm_num, F.rnd_one]
    rw [this, F.zero_def, F.lt_fin]
    norm_num
  unfold counts
  rw [decide_eq_false hsp, decide_eq_false hst]
  simp only [Bool.not_false, Bool.and_true, Bool.and_eq_true, decide_eq_true_eq]
  exact ⟨staying_inside, Nat.one_pos⟩

theorem staying_counted (d : Dm (Timestep B64)) (hf : d.file = staying) (hn : d.n = 4) :
    (samples Selector.default d.file (List.range (d.n - 3))).filter (counts d.file (unitGrid (K := B64)).geom (fin 0)) = [(0, 0)] := by
  rw [hf, hn, staying_samples, List.filter_cons_of_pos staying_counts, List.filter_nil]

theorem staying_total (d : Dm (Timestep B64)) (hf : d.file = staying) (hn : d.n = 4) : 1 / 2 ^ 500 ≤
    ((((samples Selector.default d.file (List.range (d.n - 3))).filter (counts d.file (unitGrid (K := B64)).geom (fin 0))).map
      fun x => (((x.1 + 1 : ℕ) : B64) - (x.1 : B64))).sum : B64) := by
  rw [staying_counted d hf hn]
  have : (([(0, 0)] : List (ℕ × ℕ)).map fun x => (((x.1 + 1 : ℕ) : B64) - (x.1 : B64))).sum = 1 := by norm_num
  rw [this]
  exact div_le_one_of_le₀ (one_le_pow₀ one_le_two) (by positivity)

theorem staying_stored (t : ℕ) (h : t < 4) : StoredTime (staying t).time (t : B64) := by
  refine ⟨rfl, F.rnd_nat t (by omega), ?_⟩
  have h1 : ((t : ℕ) : B64) ≤ 4 := by exact_mod_cast h.le
  rw [abs_of_nonneg (Nat.cast_nonneg t)]
  refine h1.trans ?_
  calc (4 : B64) = 2 ^ 2 := by norm_num
    _ ≤ 2 ^ 499 := pow_le_pow_right₀ one_le_two (by norm_num)

/-- Case for `C142_cells` in binary64: one particle that stays at the origin, in a grid of one cell. -/
example (p : Profile) : ∃ d : Dm (Timestep B64), Dm.new p .tdata staying 4 Timestep.default = .ok d ∧
    ∃ d' g', occupancyfield p d unitGrid Selector.default (fin 0) = .ok (d', g') ∧
      ∀ c, InB (unitGrid (K := B64)).geom.cells c → ∃ y, g'.st.data.get c = fin y ∧ 0 ≤ y := by
  obtain ⟨d, e, hd, hf, hn⟩ := Dm.canLook_new p .tdata staying 4 Timestep.default (by norm_num) (by norm_num) (Or.inl rfl)
  obtain ⟨d', g', h1, _, _, _, h2⟩ := C142_cells p d hd (by omega) (fun t => (t : B64)) (fun t ht => by rw [hf]; exact staying_stored t (by omega)) unitGrid
    (Or.inl unit_isCart) Selector.default usable_default (fun t _ => by rw [hf]; exact ⟨rfl, rfl, rfl, rfl, rfl, rfl⟩) (fin 0)
    (by rw [staying_counted d hf hn]; norm_num) (staying_total d hf hn)
  exact ⟨d, e, d', g', h1, fun c hc => by obtain ⟨y, k1, k2, _⟩ := h2 c hc; exact ⟨y, k1, k2⟩⟩

/-- Case for `C142_total` in binary64: the same particle. -/
example (p : Profile) : ∃ d : Dm (Timestep B64), Dm.new p .tdata staying 4 Timestep.default = .ok d ∧
    ∃ (d' : Dm (Timestep B64)) (g' : Grid B64) (O : CellId → B64), occupancyfield p d unitGrid Selector.default (fin 0) = .ok (d', g') ∧
      (∀ c, InB (unitGrid (K := B64)).geom.cells c → g'.st.data.get c = fin (O c) ∧ 0 ≤ O c) ∧
      |∑ c ∈ cellsOf (unitGrid (K := B64)).geom.cells, O c - 1| ≤ ((1 : ℕ) + 2) / 2 ^ 50 + (cellsOf (unitGrid (K := B64)).geom.cells).card / 2 ^ 500 := by
  obtain ⟨d, e, hd, hf, hn⟩ := Dm.canLook_new p .tdata staying 4 Timestep.default (by norm_num) (by norm_num) (Or.inl rfl)
  have h := C142_total p d hd (by omega) (fun t => (t : B64)) (fun t ht => by rw [hf]; exact staying_stored t (by omega)) unitGrid
    (Or.inl unit_isCart) Selector.default usable_default (fun t _ => by rw [hf]; exact ⟨rfl, rfl, rfl, rfl, rfl, rfl⟩) (fin 0)
    (by rw [staying_counted d hf hn]; norm_num) (staying_total d hf hn) (by
      intro x hx _
      rw [hf, hn, show 4 - 3 = 1 from rfl, staying_samples, List.mem_singleton] at hx
      subst hx
      left
      rw [hf]
      exact staying_inside)
  rw [staying_counted d hf hn] at h
  exact ⟨d, e, h⟩

end Up4
