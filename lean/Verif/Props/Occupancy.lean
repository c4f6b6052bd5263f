import Verif.Props.Msd
import Mathlib.Algebra.BigOperators.Field

set_option linter.unusedSectionVars false

/-! # C37: occupancy -/

namespace Up4
open F
open Selector (at')

variable {K : Type} [Field K] [LinearOrder K] [IsStrictOrderedRing K] [FloorRing K] [Arith K]

theorem ezero_add [ExactArith K] (a : F K) : (0 : F K) + a = a := by
  cases a with
  | fin x => rw [F.zero_def, F.eadd, zero_add]
  | nan => rfl
  | pinf => rfl
  | ninf => rfl

/-- The share of a step from `a` to `b` that the grid books in cell `c`. Cartesian grids: one half for the cell of each end
point, nothing if one of them is outside. Cylindrical grids: everything in the cell of the start. -/
def share (p : Profile) (g : Geom K) (a b : Pos K) (c : CellId) : K :=
  match g with
  | .cart _ => match g.lookup p a, g.lookup p b with
    | some c1, some c2 => (if c1 = c then 1 / 2 else 0) + (if c2 = c then 1 / 2 else 0)
    | _, _ => 0
  | .cyl _ => if g.lookup p a = some c then 1 else 0

theorem share_nonneg (p : Profile) (g : Geom K) (a b : Pos K) (c : CellId) : 0 ≤ share p g a b c := by
  unfold share
  split
  · split
    · split_ifs <;> norm_num
    · exact le_rfl
  · split_ifs <;> norm_num

/-- The shares of a step inside the grid add up to one. -/
theorem share_sum (p : Profile) (g : Geom K) (hg : g.Sound p) (a b : Pos K) (ha : g.isInside a = true)
    (hb : g.isInside b = true ∨ ∃ cg, g = .cyl cg) : ∑ c ∈ cellsOf g.cells, share p g a b c = 1 := by
  obtain ⟨c1, h1, hb1⟩ := hg.isSome ha
  cases hgc : g with
  | cart cg =>
    have hb' : g.isInside b = true := by
      rcases hb with h | ⟨cg', h⟩
      · exact h
      · rw [hgc] at h; cases h
    obtain ⟨c2, h2, hb2⟩ := hg.isSome hb'
    rw [hgc] at h1 h2 hb1 hb2
    have : ∀ c, share p (.cart cg) a b c = (if c1 = c then 1 / 2 else 0) + (if c2 = c then 1 / 2 else 0) := by
      intro c; unfold share; dsimp only; rw [h1, h2]
    simp only [this, Finset.sum_add_distrib]
    rw [Finset.sum_ite_eq, Finset.sum_ite_eq, if_pos ((mem_cellsOf _ _).2 hb1), if_pos ((mem_cellsOf _ _).2 hb2)]
    norm_num
  | cyl cg =>
    rw [hgc] at h1 hb1
    have : ∀ c, share p (.cyl cg) a b c = if c1 = c then 1 else 0 := by
      intro c; unfold share; dsimp only; rw [h1]; simp
    simp only [this]
    rw [Finset.sum_ite_eq, if_pos ((mem_cellsOf _ _).2 hb1)]

/-- The shares of any step add up to at most one. -/
theorem share_sum_le (p : Profile) (g : Geom K) (hg : g.Sound p) (a b : Pos K) (ha : g.isInside a = true) :
    ∑ c ∈ cellsOf g.cells, share p g a b c ≤ 1 := by
  obtain ⟨c1, h1, hb1⟩ := hg.isSome ha
  cases hgc : g with
  | cart cg =>
    rw [hgc] at h1 hb1
    cases h2 : (Geom.cart cg).lookup p b with
    | none =>
      have : ∀ c, share p (.cart cg) a b c = 0 := by intro c; unfold share; dsimp only; rw [h1, h2]
      simp [this]
    | some c2 =>
      have : ∀ c, share p (.cart cg) a b c = (if c1 = c then 1 / 2 else 0) + (if c2 = c then 1 / 2 else 0) := by
        intro c; unfold share; dsimp only; rw [h1, h2]
      simp only [this, Finset.sum_add_distrib]
      rw [Finset.sum_ite_eq, Finset.sum_ite_eq]
      split_ifs <;> norm_num
  | cyl cg => exact (share_sum p (.cyl cg) (hgc ▸ hg) a b (hgc ▸ ha) (Or.inr ⟨cg, rfl⟩)).le

/-- One `add_trajectory_value` of a finite value from a position inside the grid, exact arithmetic. -/
theorem addTrajectory_share [LawfulArith K] [ExactArith K] (p : Profile) (g : Grid K) (hg : IsCart g ∨ (g.Fillable p ∧ ∃ cg, g.geom = .cyl cg))
    (a b : Pos K) (ha : g.geom.isInside a = true) (v : K) :
    ∃ g', g.addTrajectoryValue p a b (fin v) = .ok g' ∧ g'.geom = g.geom ∧ g'.Shaped ∧
      ∀ c y z, g.st.data.get c = fin y → g.st.weight.get c = fin z →
        g'.st.data.get c = fin (y + v * share p g.geom a b c) ∧ g'.st.weight.get c = fin (z + share p g.geom a b c) := by
  have h12 : (F.lit (1 / 2) : F K) = fin (1 / 2) := elit _
  rcases hg with hg | ⟨hg, cg, hcg⟩
  · obtain ⟨cg, hcg⟩ := hg.1
    have hsh : ∀ c, share p g.geom a b c = match g.geom.lookup p a, g.geom.lookup p b with
        | some c1, some c2 => (if c1 = c then 1 / 2 else 0) + (if c2 = c then 1 / 2 else 0)
        | _, _ => 0 := by
      intro c; rw [hcg]; rfl
    refine ⟨_, addTrajectoryValue_eq p g hg a b (fin v), ?_⟩
    cases h1 : g.geom.lookup p a with
    | none => exact ⟨rfl, hg.2.2, fun c y z hy hz => by rw [hsh c, h1]; simp [hy, hz]⟩
    | some c1 =>
      cases h2 : g.geom.lookup p b with
      | none => exact ⟨rfl, hg.2.2, fun c y z hy hz => by rw [hsh c, h1, h2]; simp [hy, hz]⟩
      | some c2 =>
        refine ⟨rfl, hg.2.2, fun c y z hy hz => ?_⟩
        rw [hsh c, h1, h2, h12, emul]
        dsimp only [Store.bump]
        have e : c1 = c2 ∨ c1 ≠ c2 := em _
        by_cases k1 : c = c1
        · subst k1
          by_cases k2 : c = c2
          · subst k2
            simp only [Function.update_self, hy, hz, eadd, if_true]
            constructor <;> (congr 1; ring)
          · have k2' : c2 ≠ c := fun h => k2 h.symm
            simp only [Function.update_of_ne k2, Function.update_self, hy, hz, eadd, if_true, if_neg k2', add_zero]
            exact ⟨trivial, trivial⟩
        · have k1' : c1 ≠ c := fun h => k1 h.symm
          by_cases k2 : c = c2
          · subst k2
            simp only [Function.update_of_ne k1, Function.update_self, hy, hz, eadd, if_true, if_neg k1', zero_add]
            exact ⟨trivial, trivial⟩
          · have k2' : c2 ≠ c := fun h => k2 h.symm
            simp only [Function.update_of_ne k1, Function.update_of_ne k2, hy, hz, if_neg k1', if_neg k2', add_zero, mul_zero, and_self]
  · have hsh : ∀ c, share p g.geom a b c = if g.geom.lookup p a = some c then 1 else 0 := by
      intro c; rw [hcg]; rfl
    have e : g.addTrajectoryValue p a b (fin v) = g.addValue p a (fin v) := by
      unfold Grid.addTrajectoryValue; rw [hcg]
    obtain ⟨c1, h1, hb1⟩ := hg.2.isSome ha
    rw [e, Grid.addValue_eq hg.1 (hg.2.lookupOk ha)]
    refine ⟨_, rfl, Grid.bumped_geom _ _ _, Grid.bumped_shaped hg.1 _ _, fun c y z hy hz => ?_⟩
    rw [hsh c, h1]
    unfold Grid.bumped
    dsimp only [Store.bump]
    by_cases k1 : c = c1
    · subst k1
      simp only [Function.update_self, hy, hz, eadd, if_true, F.one_def, mul_one, and_self]
    · have k1' : ¬ (some c1 = some c) := fun h => k1 (Option.some.inj h).symm
      simp only [Function.update_of_ne k1, hy, hz, if_neg k1', add_zero, mul_zero, and_self]

/-- A whole sequence of steps, with the total time kept beside. -/
theorem trajectory_fold [LawfulArith K] [ExactArith K] {α : Type} (p : Profile) (L : List α) (a b : α → Pos K) (v : α → K) (g : Grid K)
    (hg : IsCart g ∨ (g.Fillable p ∧ ∃ cg, g.geom = .cyl cg)) (ha : ∀ x ∈ L, g.geom.isInside (a x) = true) (T : K) :
    ∃ g', L.foldlM (fun (s : Grid K × F K) x => do
        let g ← s.1.addTrajectoryValue p (a x) (b x) (fin (v x))
        pure (g, s.2 + fin (v x))) (g, fin T) = .ok (g', fin (T + (L.map v).sum)) ∧ g'.geom = g.geom ∧ g'.Shaped ∧
      ∀ c y z, g.st.data.get c = fin y → g.st.weight.get c = fin z →
        g'.st.data.get c = fin (y + (L.map fun x => v x * share p g.geom (a x) (b x) c).sum) ∧
        g'.st.weight.get c = fin (z + (L.map fun x => share p g.geom (a x) (b x) c).sum) := by
  induction L generalizing g T with
  | nil =>
    refine ⟨g, by simp [run_pure], rfl, ?_, fun c y z hy hz => by simp [hy, hz]⟩
    rcases hg with h | h
    · exact h.2.2
    · exact h.1.1
  | cons x L ih =>
    obtain ⟨g1, e1, e2, e3, e4⟩ := addTrajectory_share p g hg (a x) (b x) (ha x (by simp)) (v x)
    have hg1 : IsCart g1 ∨ (g1.Fillable p ∧ ∃ cg, g1.geom = .cyl cg) := by
      rcases hg with h | ⟨h, h'⟩
      · exact Or.inl ⟨by rw [e2]; exact h.1, by rw [e2]; exact h.2.1, e3⟩
      · exact Or.inr ⟨⟨e3, by rw [e2]; exact h.2⟩, by rw [e2]; exact h'⟩
    obtain ⟨g', k1, k2, k3, k4⟩ := ih g1 hg1 (fun y hy => by rw [e2]; exact ha y (by simp [hy])) (T + v x)
    refine ⟨g', ?_, k2.trans e2, k3, fun c y z hy hz => ?_⟩
    · rw [List.foldlM_cons, e1, run_bind_ok, run_pure, run_bind_ok, eadd, k1, List.map_cons, List.sum_cons, add_assoc]
    · obtain ⟨m1, m2⟩ := e4 c y z hy hz
      obtain ⟨n1, n2⟩ := k4 c _ _ m1 m2
      rw [n1, n2, e2]
      simp only [List.map_cons, List.sum_cons, add_assoc, and_self]

/-- Time until the next timestep. -/
def stepTime (file : ℕ → Timestep K) (t : ℕ) : F K := (file (t + 1)).time - (file t).time

/-- The sample counts for the occupancy: inside the grid, not slower than the minimum, time does not run backwards, and the particle
slot exists in the next timestep. -/
def counts (file : ℕ → Timestep K) (g : Geom K) (minV : F K) (x : ℕ × ℕ) : Bool :=
  g.isInside (posOf file x) && !decide ((file x.1).speed x.2 < minV) && !decide (stepTime file x.1 < 0) &&
    decide (x.2 < (file (x.1 + 1)).position.length)

/-- The successor position of a sample: the same slot in the next timestep. -/
def nextOf (file : ℕ → Timestep K) (x : ℕ × ℕ) : Pos K := (file (x.1 + 1)).pos x.2

/-- **C37, what is computed.** Exact arithmetic, a Cartesian or cylindrical grid without contents, finite times, at least three
timesteps. Of the samples in the timesteps `0 … n-4`, let `C` be those that count. Each cell holds the share of the step
times of `C` booked in it, divided by the total step time `T` of `C`; if `T = 0`, every cell is NaN. -/
theorem C37_cells [LawfulArith K] [ExactArith K] (p : Profile) (d : Dm (Timestep K)) (hd : d.CanLook) (hn : 3 ≤ d.n) (τ : ℕ → K)
    (hτ : ∀ t, t < d.n → (d.file t).time = fin (τ t)) (grid : Grid K)
    (hg : IsCart grid ∨ (grid.Fillable p ∧ ∃ cg, grid.geom = .cyl cg)) (hfresh : ∀ c, grid.st.weight.get c = 0)
    (sel : Selector K) (hs : sel.Usable) (hw : ∀ t, t < d.n → (d.file t).Wf) (minV : F K) :
    ∃ d' g', occupancyfield p d grid sel minV = .ok (d', g') ∧ d'.CanLook ∧ d'.file = d.file ∧ d'.n = d.n ∧ g'.geom = grid.geom ∧ g'.Shaped ∧
      let C := (samples sel d.file (List.range (d.n - 3))).filter (counts d.file grid.geom minV)
      let dt := fun x : ℕ × ℕ => τ (x.1 + 1) - τ x.1
      let T := (C.map dt).sum
      0 ≤ T ∧ (∀ x ∈ C, 0 ≤ dt x ∧ grid.isInside (posOf d.file x) = true) ∧
      ∀ c, g'.st.weight.get c = fin (C.map fun x => share p grid.geom (posOf d.file x) (nextOf d.file x) c).sum ∧
        (T = 0 → g'.st.data.get c = F.nan) ∧
        (T ≠ 0 → g'.st.data.get c = fin ((C.map fun x => dt x * share p grid.geom (posOf d.file x) (nextOf d.file x) c).sum / T)) := by
  have hsh : grid.Shaped := by
    rcases hg with h | h
    · exact h.2.2
    · exact h.1.1
  obtain ⟨d1, e1, hd1, hf1, hn1⟩ := Dm.setup_looking p Timestep.default d hd
  obtain ⟨d2, l2, hd2, hf2, hn2, e2⟩ := occupancyLoop_eq p sel hs grid minV (d1.n - 3) 0 d1 (by rw [hf1, hn1]; exact hw) 0 (by omega) hd1
    (by omega) (grid.newZeros, 0)
  set C := (samples sel d.file (List.range (d.n - 3))).filter (counts d.file grid.geom minV) with hC
  set dt := fun x : ℕ × ℕ => τ (x.1 + 1) - τ x.1 with hdt
  have hst : ∀ t, t + 1 < d.n → stepTime d.file t = fin (τ (t + 1) - τ t) := by
    intro t ht
    unfold stepTime
    rw [hτ _ ht, hτ t (by omega), esub]
  have hmem : ∀ x ∈ C, x.1 + 1 < d.n ∧ 0 ≤ dt x ∧ grid.geom.isInside (posOf d.file x) = true := by
    rintro ⟨t, i⟩ hx
    obtain ⟨h1, h2⟩ := List.mem_filter.1 hx
    obtain ⟨ht, _⟩ := (mem_samples _ _ _ _ _).1 h1
    have ht := List.mem_range.1 ht
    unfold counts at h2
    simp only [Bool.and_eq_true, Bool.not_eq_true', decide_eq_false_iff_not] at h2
    obtain ⟨⟨⟨h3, _⟩, h4⟩, _⟩ := h2
    refine ⟨by omega, ?_, h3⟩
    rw [hst t (by omega), F.zero_def, F.lt_fin, not_lt] at h4
    exact h4
  have hz : IsCart grid.newZeros ∨ (grid.newZeros.Fillable p ∧ ∃ cg, grid.newZeros.geom = .cyl cg) := by
    rcases hg with h | ⟨h, h'⟩
    · exact Or.inl ⟨h.1, h.2.1, newZeros_shaped h.2.2⟩
    · exact Or.inr ⟨⟨newZeros_shaped h.1, h.2⟩, h'⟩
  obtain ⟨g1, k1, k2, k3, k4⟩ := trajectory_fold p C (posOf d.file) (nextOf d.file) dt grid.newZeros hz (fun x hx => (hmem x hx).2.2) 0
  have hbody : (samples sel d1.file (List.range' 0 (d1.n - 3))).foldlM
      (fun s x => occupancyBody p grid minV (d1.file (x.1 + 1)) s (d1.file x.1) x.2) (grid.newZeros, 0) =
      .ok (g1, fin (0 + (C.map dt).sum)) := by
    rw [← k1, hf1, hn1, ← List.range_eq_range', hC]
    have : ∀ x ∈ C, fin (dt x) = stepTime d.file x.1 := fun x hx => (hst x.1 (hmem x hx).1).symm
    rw [show ((samples sel d.file (List.range (d.n - 3))).filter (counts d.file grid.geom minV)).foldlM
        (fun (s : Grid K × F K) x => do
          let g ← s.1.addTrajectoryValue p (posOf d.file x) (nextOf d.file x) (fin (dt x))
          pure (g, s.2 + fin (dt x))) (grid.newZeros, fin 0) =
        ((samples sel d.file (List.range (d.n - 3))).filter (counts d.file grid.geom minV)).foldlM
        (fun (s : Grid K × F K) x => do
          let g ← s.1.addTrajectoryValue p (posOf d.file x) (nextOf d.file x) (stepTime d.file x.1)
          pure (g, s.2 + stepTime d.file x.1)) (grid.newZeros, fin 0) from
      foldlM_congr _ _ _ _ (fun s x hx => by rw [this x hx])]
    rw [← foldlM_filter_run]
    apply foldlM_congr
    rintro s ⟨t, i⟩ hx
    obtain ⟨ht, _, hi, _⟩ := (mem_samples _ _ _ _ _).1 hx
    have ht := List.mem_range.1 ht
    have hsp : (0 + (d.file t).vel i 0 * (d.file t).vel i 0 + (d.file t).vel i 1 * (d.file t).vel i 1 +
        (d.file t).vel i 2 * (d.file t).vel i 2).sqrt = (d.file t).speed i := by
      unfold Timestep.speed; rw [ezero_add]
    unfold occupancyBody counts
    rw [at_pos hi, run_bind_ok]
    dsimp only
    by_cases c1 : grid.geom.isInside (posOf d.file (t, i)) = true
    · rw [if_neg (show ¬ grid.isInside ((d.file t).pos i) = false by
          have : grid.isInside ((d.file t).pos i) = true := c1
          rw [this]; simp), at_vel (hw t (by omega)) hi, run_bind_ok, hsp, c1]
      by_cases c2 : (d.file t).speed i < minV
      · rw [if_pos c2, decide_eq_true c2]; rfl
      · rw [if_neg c2, decide_eq_false c2]
        by_cases c3 : stepTime d.file t < 0
        · rw [decide_eq_true c3]
          unfold stepTime at c3
          rw [if_pos c3]; rfl
        · rw [decide_eq_false c3]
          unfold stepTime at c3 ⊢
          rw [if_neg c3]
          by_cases c4 : i < (d.file (t + 1)).position.length
          · rw [if_neg (by omega), at_pos c4, run_bind_ok, decide_eq_true c4]
            rfl
          · rw [if_pos (by omega), decide_eq_false c4]; rfl
    · have c1' : grid.geom.isInside (posOf d.file (t, i)) = false := by simpa using c1
      rw [if_pos (show grid.isInside ((d.file t).pos i) = false from c1'), c1']; rfl
  rw [zero_add] at hbody
  refine ⟨d2, g1.divideByScalar (fin (C.map dt).sum), ?_, hd2.canLook, hf2.trans hf1, hn2.trans hn1, k2, k3, ?_, ?_, ?_⟩
  · unfold occupancyfield
    rw [e1, run_bind_ok, stepsBut_eq p d1 hd1.1 (by omega), run_bind_ok, List.range_eq_range', e2, hbody, run_bind_ok, run_bind_ok]
    rfl
  · apply List.sum_nonneg
    intro y hy
    obtain ⟨x, hx, rfl⟩ := List.mem_map.1 hy
    exact (hmem x hx).2.1
  · exact fun x hx => (hmem x hx).2
  · intro c
    obtain ⟨m1, m2⟩ := k4 c 0 0 rfl (hfresh c)
    rw [zero_add] at m1 m2
    refine ⟨m2, fun h0 => ?_, fun h0 => ?_⟩
    · have hzero : (C.map fun x => dt x * share p grid.newZeros.geom (posOf d.file x) (nextOf d.file x) c).sum = 0 := by
        have hall : ∀ x ∈ C, dt x = 0 := by
          have hnn : ∀ y ∈ C.map dt, (0 : K) ≤ y := fun y hy => by
            obtain ⟨x, hx, rfl⟩ := List.mem_map.1 hy
            exact (hmem x hx).2.1
          intro x hx
          have h1 := hnn (dt x) (List.mem_map_of_mem hx)
          have h2 : dt x ≤ (C.map dt).sum := List.single_le_sum hnn _ (List.mem_map_of_mem hx)
          rw [h0] at h2
          exact le_antisymm h2 h1
        rw [List.sum_eq_zero]
        intro y hy
        obtain ⟨x, hx, rfl⟩ := List.mem_map.1 hy
        rw [hall x hx, zero_mul]
      change g1.st.data.get c / fin (C.map dt).sum = _
      rw [m1, hzero, h0, F.div_fin]
      simp [F.infTimes]
    · change g1.st.data.get c / fin (C.map dt).sum = _
      rw [m1, ediv _ h0]
      rfl

theorem sum_list_swap {α : Type} {n : ℕ} (s : Fin n → ℕ) (L : List α) (f : α → (Fin n → ℕ) → K) :
    ∑ c ∈ cellsOf s, (L.map fun x => f x c).sum = (L.map fun x => ∑ c ∈ cellsOf s, f x c).sum := by
  induction L with
  | nil => simp
  | cons x L ih => simp only [List.map_cons, List.sum_cons, Finset.sum_add_distrib, ih]

/-- **C37.** If the counted samples take up some time, every cell of the occupancy field is a number between 0 and 1 and
the field sums to at most 1; it sums to exactly 1 if the successor of every counted sample is inside the grid as well (on
cylindrical grids always). -/
theorem C37_occupancy [LawfulArith K] [ExactArith K] (p : Profile) (d : Dm (Timestep K)) (hd : d.CanLook) (hn : 3 ≤ d.n) (τ : ℕ → K)
    (hτ : ∀ t, t < d.n → (d.file t).time = fin (τ t)) (grid : Grid K)
    (hg : IsCart grid ∨ (grid.Fillable p ∧ ∃ cg, grid.geom = .cyl cg)) (hfresh : ∀ c, grid.st.weight.get c = 0)
    (sel : Selector K) (hs : sel.Usable) (hw : ∀ t, t < d.n → (d.file t).Wf) (minV : F K)
    (hT : ((((samples sel d.file (List.range (d.n - 3))).filter (counts d.file grid.geom minV)).map
      fun x => τ (x.1 + 1) - τ x.1).sum : K) ≠ 0) :
    ∃ (d' : Dm (Timestep K)) (g' : Grid K) (O : CellId → K), occupancyfield p d grid sel minV = .ok (d', g') ∧ d'.file = d.file ∧ d'.n = d.n ∧ g'.geom = grid.geom ∧ g'.Shaped ∧
      (∀ c, g'.st.data.get c = fin (O c)) ∧ (∀ c, InB grid.geom.cells c → 0 ≤ O c ∧ O c ≤ 1) ∧
      ∑ c ∈ cellsOf grid.geom.cells, O c ≤ 1 ∧
      ((∀ x ∈ samples sel d.file (List.range (d.n - 3)), counts d.file grid.geom minV x = true →
        grid.isInside (nextOf d.file x) = true ∨ ∃ cg, grid.geom = .cyl cg) → ∑ c ∈ cellsOf grid.geom.cells, O c = 1) := by
  obtain ⟨d', g', h1, _, h2, h3, h4, h4', hT0, hC, h5⟩ := C37_cells p d hd hn τ hτ grid hg hfresh sel hs hw minV
  have hsound : grid.geom.Sound p := by
    rcases hg with h | h
    · exact (fillable_cart p grid h).2
    · exact h.1.2
  set C := (samples sel d.file (List.range (d.n - 3))).filter (counts d.file grid.geom minV) with hCdef
  set T := (C.map fun x : ℕ × ℕ => τ (x.1 + 1) - τ x.1).sum with hTdef
  have hTpos : 0 < T := lt_of_le_of_ne hT0 (Ne.symm hT)
  refine ⟨d', g', fun c => (C.map fun x => (τ (x.1 + 1) - τ x.1) * share p grid.geom (posOf d.file x) (nextOf d.file x) c).sum / T,
    h1, h2, h3, h4, h4', fun c => (h5 c).2.2 hT, ?_⟩
  have hnn : ∀ c, 0 ≤ (C.map fun x => (τ (x.1 + 1) - τ x.1) * share p grid.geom (posOf d.file x) (nextOf d.file x) c).sum / T := by
    intro c
    refine div_nonneg (List.sum_nonneg ?_) hT0
    intro y hy
    obtain ⟨x, hx, rfl⟩ := List.mem_map.1 hy
    exact mul_nonneg (hC x hx).1 (share_nonneg _ _ _ _ _)
  have hsum : ∑ c ∈ cellsOf grid.geom.cells, (C.map fun x => (τ (x.1 + 1) - τ x.1) * share p grid.geom (posOf d.file x) (nextOf d.file x) c).sum / T =
      (C.map fun x => (τ (x.1 + 1) - τ x.1) * ∑ c ∈ cellsOf grid.geom.cells, share p grid.geom (posOf d.file x) (nextOf d.file x) c).sum / T := by
    rw [← Finset.sum_div, sum_list_swap]
    simp only [Finset.mul_sum]
  have hle : ∑ c ∈ cellsOf grid.geom.cells, (C.map fun x => (τ (x.1 + 1) - τ x.1) * share p grid.geom (posOf d.file x) (nextOf d.file x) c).sum / T ≤ 1 := by
    rw [hsum, div_le_one hTpos, hTdef]
    apply List.sum_le_sum
    intro x hx
    calc _ ≤ (τ (x.1 + 1) - τ x.1) * 1 := mul_le_mul_of_nonneg_left (share_sum_le p grid.geom hsound _ _ (hC x hx).2) (hC x hx).1
      _ = _ := mul_one _
  refine ⟨fun c hcb => ⟨hnn c, ?_⟩, hle, fun hin => ?_⟩
  · exact (Finset.single_le_sum (f := fun c => (C.map fun x => (τ (x.1 + 1) - τ x.1) * share p grid.geom (posOf d.file x) (nextOf d.file x) c).sum / T)
      (fun c _ => hnn c) ((mem_cellsOf _ _).2 hcb)).trans hle
  · rw [hsum, div_eq_one_iff_eq hT, hTdef]
    congr 1
    apply List.map_congr_left
    intro x hx
    obtain ⟨g1, g2⟩ := List.mem_filter.1 hx
    rw [share_sum p grid.geom hsound _ _ (hC x hx).2 (hin x g1 g2), mul_one]

/-- Witness for C37: five timesteps of the demo dataset on a grid of 2×2×2 cells over `[0,4]³`, no minimum speed. The samples
of the timesteps 0 and 1 count, two seconds in total, and both successors are inside. -/
example (p : Profile) (kind : Kind) : ∃ d : Dm (Timestep ℝ), d.CanLook ∧ d.n = 5 ∧
    ((samples Selector.default d.file (List.range (d.n - 3))).filter (counts d.file
      (Grid.newCart (fun _ => 2) (finLimits (fun _ => (0 : ℝ)) (fun _ => 4))).geom 0)) = [(0, 0), (1, 0)] ∧
    (([(0, 0), (1, 0)] : List (ℕ × ℕ)).map fun x => (((x.1 + 1 : ℕ) : ℝ) - (x.1 : ℝ))).sum = 2 ∧
    ∀ x ∈ [(0, 0), (1, 0)], (Grid.newCart (fun _ => 2) (finLimits (fun _ => (0 : ℝ)) (fun _ => 4))).isInside (nextOf d.file x) = true := by
  obtain ⟨d, e, hd, hf, hn⟩ := Dm.canLook_new p kind demoFile 5 Timestep.default (by norm_num) (by norm_num) (Or.inr (by norm_num [BUFFERSIZE]))
  have hins : ∀ t : ℕ, t ≤ 4 → (Grid.newCart (fun _ => 2) (finLimits (fun _ => (0 : ℝ)) (fun _ => 4))).geom.isInside (fun _ => fin ((t : ℝ) / 2)) = true := by
    intro t ht
    have : (t : ℝ) ≤ 4 := by exact_mod_cast ht
    exact (cart_inside _ _ _ (fun _ => (t : ℝ) / 2)).2 fun a => ⟨by positivity, by linarith⟩
  refine ⟨d, hd, hn, ?_, by norm_num, ?_⟩
  · rw [hf, hn, demo_samples 2 (by norm_num)]
    have hr : (List.range 2).map (fun t => (t, 0)) = [((0 : ℕ), 0), (1, 0)] := rfl
    rw [hr, List.filter_eq_self]
    have hsp : ∀ t, ¬ (demoFile t).speed 0 < 0 := by
      intro t
      obtain ⟨T, h1, h2, _⟩ := sqrt_root (K := ℝ) (x := 3 * 3 + 0 * 0 + 4 * 4) (by norm_num)
      have : (demoFile t).speed 0 = fin T := by
        rw [← h1]
        change ((fin 3 * fin 3 + fin 0 * fin 0 + fin 4 * fin 4 : F ℝ)).sqrt = _
        rw [emul, emul, emul, eadd, eadd]
      rw [this, F.zero_def, F.lt_fin, not_lt]
      exact h2
    have hst : ∀ t, ¬ stepTime demoFile t < 0 := by
      intro t
      unfold stepTime
      change ¬ (fin ((t + 1 : ℕ) : ℝ) - fin (t : ℝ) : F ℝ) < 0
      rw [esub, F.zero_def, F.lt_fin, not_lt]
      push_cast
      linarith
    intro x hx
    simp only [List.mem_cons, List.not_mem_nil, or_false] at hx
    have key : ∀ t : ℕ, t ≤ 4 → counts demoFile (Grid.newCart (fun _ => 2) (finLimits (fun _ => (0 : ℝ)) (fun _ => 4))).geom 0 (t, 0) = true := by
      intro t ht
      unfold counts
      rw [decide_eq_false (hsp t), decide_eq_false (hst t)]
      simp only [Bool.not_false, Bool.and_true, Bool.and_eq_true, decide_eq_true_eq]
      exact ⟨hins t ht, Nat.one_pos⟩
    rcases hx with rfl | rfl
    · exact key 0 (by norm_num)
    · exact key 1 (by norm_num)
  · intro x hx
    simp only [List.mem_cons, List.not_mem_nil, or_false] at hx
    rw [hf]
    rcases hx with rfl | rfl
    · exact hins 1 (by norm_num)
    · exact hins 2 (by norm_num)

end Up4
