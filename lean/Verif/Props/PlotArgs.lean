import Verif.Props.Maps

set_option linter.unusedSectionVars false

/-! # C86: the arguments of the plots -/

namespace Up4
open F

variable {K : Type} [Field K] [LinearOrder K] [IsStrictOrderedRing K] [FloorRing K] [Arith K]

/-! ### Specification -/

/-- What the arguments `axis` and `selection`/`index` mean, if anything. -/
inductive Asks : PlotArgs K → ℕ → Sel → Prop
  | average (a : PlotArgs K) (n : ℕ) : n ≤ 2 → a.axis = n → a.selection = "depth_average" → Asks a n .depthAverage
  | plane (a : PlotArgs K) (n k : ℕ) : n ≤ 2 → a.axis = n → a.selection = "plane" → a.index = some k → Asks a n (.plane k)

/-- What the arguments `scaling_mode`, `min_size` and `max_size` mean, if anything. -/
inductive Scales : PlotArgs K → Scaling K → Prop
  | none (a : PlotArgs K) : a.mode = none → Scales a .asIs
  | min (a : PlotArgs K) (m : F K) : a.mode = some "min" → a.minSize = some m → Scales a (.min m)
  | max (a : PlotArgs K) (m : F K) : a.mode = some "max" → a.maxSize = some m → Scales a (.max m)
  | minMax (a : PlotArgs K) (lo hi : F K) : a.mode = some "minmax" → a.minSize = some lo → a.maxSize = some hi → Scales a (.minMax lo hi)
  | half (a : PlotArgs K) : a.mode = some "half_node" → Scales a .halfNode
  | full (a : PlotArgs K) : a.mode = some "full_node" → Scales a .fullNode

theorem sel_asks (a : PlotArgs K) (n : ℕ) (sel : Sel) (h : Asks a n sel) : a.sel = .ok sel ∧ a.axis.toNat = n := by
  cases h with
  | average hn hax hs => unfold PlotArgs.sel; rw [if_pos hs, hax]; exact ⟨rfl, by simp⟩
  | plane k hn hax hs hi =>
    unfold PlotArgs.sel; rw [if_neg (by rw [hs]; decide), hi, hax]; exact ⟨rfl, by simp⟩

theorem scaling_scales (a : PlotArgs K) (m : Scaling K) (h : Scales a m) : a.scaling = .ok m := by
  cases h with
  | none h => unfold PlotArgs.scaling; rw [h]
  | min m h h1 => unfold PlotArgs.scaling; simp only [h, h1]; rfl
  | max m h h1 => unfold PlotArgs.scaling; simp only [h, h1]; rfl
  | minMax lo hi h h1 h2 => unfold PlotArgs.scaling; simp only [h, h1, h2]; rfl
  | half h => unfold PlotArgs.scaling; simp only [h]
  | full h => unfold PlotArgs.scaling; simp only [h]

theorem validate_of (a : PlotArgs K) (n : ℕ) (sel : Sel) (m : Scaling K) (h1 : Asks a n sel) (h2 : Scales a m) : a.validate = true := by
  unfold PlotArgs.validate
  have hax : a.axis = 0 ∨ a.axis = 1 ∨ a.axis = 2 := by cases h1 <;> omega
  have hsel : a.selection = "depth_average" ∨ a.selection = "plane" := by
    cases h1 with
    | average _ _ hs => exact Or.inl hs
    | plane _ _ _ hs _ => exact Or.inr hs
  have hidx : ¬ (a.selection = "plane" ∧ a.index = none) := by
    rintro ⟨hs, hi⟩
    cases h1 with
    | average _ _ hs' => rw [hs] at hs'; exact absurd hs' (by decide)
    | plane _ _ _ _ hi' => rw [hi] at hi'; cases hi'
  rw [if_neg (not_not.2 hax), if_neg (not_not.2 hsel), if_neg hidx]
  cases h2 with
  | none h => simp [h]
  | min m h h1 => simp [h, h1]
  | max m h h1 => simp [h, h1]
  | minMax lo hi h h1 h2 => simp [h, h1, h2]
  | half h => simp [h]
  | full h => simp [h]

theorem of_validate (a : PlotArgs K) (h : a.validate = true) : ∃ n sel m, Asks a n sel ∧ Scales a m := by
  unfold PlotArgs.validate at h
  split_ifs at h with h1 h2 h3 h4 h5 h6 h7
  obtain ⟨n, hn, hax⟩ : ∃ n : ℕ, n ≤ 2 ∧ a.axis = n := by
    rcases h1 with e | e | e
    · exact ⟨0, by omega, e⟩
    · exact ⟨1, by omega, e⟩
    · exact ⟨2, by omega, e⟩
  have hs : ∃ sel, Asks a n sel := by
    rcases h2 with e | e
    · exact ⟨_, .average a n hn hax e⟩
    · cases hi : a.index with
      | none => exact absurd ⟨e, hi⟩ h3
      | some k => exact ⟨_, .plane a n k hn hax e hi⟩
  obtain ⟨sel, hs⟩ := hs
  have hm : ∃ m, Scales a m := by
    cases hmode : a.mode with
    | none => exact ⟨_, .none a hmode⟩
    | some s =>
      rw [hmode] at h4 h5 h6 h7
      have : ∃ m ∈ ["min", "max", "minmax", "half_node", "full_node"], some s = some m := by
        by_contra hno; exact h4 ⟨by simp, hno⟩
      obtain ⟨m, hmem, e⟩ := this
      cases e
      simp only [List.mem_cons, List.not_mem_nil, or_false] at hmem
      rcases hmem with rfl | rfl | rfl | rfl | rfl
      · cases hz : a.minSize with
        | none => exact absurd ⟨rfl, by rw [hz]; rfl⟩ h5
        | some z => exact ⟨_, .min a z hmode hz⟩
      · cases hz : a.maxSize with
        | none => exact absurd ⟨rfl, by rw [hz]; rfl⟩ h6
        | some z => exact ⟨_, .max a z hmode hz⟩
      · cases hz : a.minSize with
        | none => exact absurd ⟨rfl, Or.inl (by rw [hz]; rfl)⟩ h7
        | some z =>
          cases hy : a.maxSize with
          | none => exact absurd ⟨rfl, Or.inr (by rw [hy]; rfl)⟩ h7
          | some y => exact ⟨_, .minMax a z y hmode hz hy⟩
      · exact ⟨_, .half a hmode⟩
      · exact ⟨_, .full a hmode⟩
  obtain ⟨m, hm⟩ := hm
  exact ⟨n, sel, m, hs, hm⟩

/-- **C86, quiver plots.** Arguments with a meaning run the plot they mean; all others raise `ValueError`, whatever the grid. So no missing size or index reaches the Rust layer, where it would panic. -/
theorem C86_quiver (g : VecGrid K) (a : PlotArgs K) :
    (∀ n sel m, Asks a n sel → Scales a m → pyQuiver g a = .ran (quiverPlot g n sel m)) ∧
    ((¬ ∃ n sel m, Asks a n sel ∧ Scales a m) → pyQuiver g a = .refused) := by
  constructor
  · intro n sel m h1 h2
    unfold pyQuiver
    obtain ⟨e1, e2⟩ := sel_asks a n sel h1
    rw [if_pos (validate_of a n sel m h1 h2), e1, run_bind_ok, scaling_scales a m h2, run_bind_ok, e2]
  · intro h
    unfold pyQuiver
    rw [if_neg fun hv => h (of_validate a hv)]

/-- Witness: a depth average with arrows of length at most 1; and `max` without a size. -/
example (g : VecGrid ℝ) : pyQuiver g ⟨2, "depth_average", none, some "max", none, some 1⟩ = .ran (quiverPlot g 2 .depthAverage (.max 1)) ∧
    pyQuiver g ⟨2, "depth_average", none, some "max", some 1, none⟩ = .refused := by
  refine ⟨(C86_quiver g _).1 2 .depthAverage (.max 1) (.average _ 2 le_rfl rfl rfl) (.max _ 1 rfl rfl), (C86_quiver g _).2 ?_⟩
  rintro ⟨_, _, _, _, h⟩
  cases h with
  | none h => cases h
  | max _ _ h => cases h
  | min _ h => exact absurd h (by decide)
  | minMax _ _ h => exact absurd h (by decide)
  | half h => exact absurd h (by decide)
  | full h => exact absurd h (by decide)

/-- **C86, unit vector plots (partial).** The same except for the mode `max`: arguments with a meaning that do not use `max` run the plot they mean. -/
theorem C86_unit_partial (g : VecGrid K) (a : PlotArgs K) (n : ℕ) (sel : Sel) (m : Scaling K) (h1 : Asks a n sel) (h2 : Scales a m) (hm : a.mode ≠ some "max") :
    pyUnit g a = .ran (unitPlot g n sel m) := by
  unfold pyUnit
  obtain ⟨e1, e2⟩ := sel_asks a n sel h1
  have hv : PlotArgs.validate { a with maxSize := a.minSize } = true := by
    refine validate_of _ n sel (match m with
      | .minMax lo _ => .minMax lo lo
      | x => x) ?_ ?_
    · cases h1 with
      | average x y z => exact .average _ n x y z
      | plane k x y z w => exact .plane _ n _ x y z w
    · cases h2 with
      | none h => exact .none _ h
      | min m h h1 => exact .min _ m h h1
      | max m h h1 => exact absurd h hm
      | minMax lo hi h h1 h2 => exact .minMax _ lo lo h h1 h1
      | half h => exact .half _ h
      | full h => exact .full _ h
  rw [if_pos hv, e1, run_bind_ok, scaling_scales a m h2, run_bind_ok, e2]

/-- **C86 is false for unit vector plots**: `scaling_mode = "max"` with `max_size` given, as documented, is refused; with only `min_size` given it is let through and panics. -/
theorem C86_unit_false (g : VecGrid K) (m : F K) :
    pyUnit g ⟨2, "depth_average", none, some "max", none, some m⟩ = .refused ∧
    pyUnit g ⟨2, "depth_average", none, some "max", some m, none⟩ = .ran (.error .unwrap) := by
  constructor
  · unfold pyUnit
    have : PlotArgs.validate (K := K) { axis := 2, selection := "depth_average", index := none, mode := some "max", minSize := none, maxSize := none } = false := by
      simp [PlotArgs.validate]
    rw [if_neg (by rw [this]; decide)]
  · unfold pyUnit
    have : PlotArgs.validate (K := K) { axis := 2, selection := "depth_average", index := none, mode := some "max", minSize := some m, maxSize := some m } = true := by
      simp [PlotArgs.validate]
    rw [if_pos this]
    rfl

end Up4
