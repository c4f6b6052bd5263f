import Verif.Props.VecGrid
import Verif.Props.Selector
import Verif.Props.Search
import Verif.Props.Circulation
import Verif.Props.TwoBoundary
import Verif.Props.Rotation
import Verif.Props.Interpolate
import Verif.Props.Velocity
import Verif.Props.Threshold
import Verif.Props.CsvMultiVel
import Verif.Props.CsvSteps
import Verif.Props.Parallel
import Verif.Props.Items
import Verif.Props.QuiverNode
import Verif.Props.Dispersion
import Verif.Proofs.Outlier

/-!
# Cases for the theorems about calls that are refused

Concrete calls that meet the hypotheses of the theorems that say which calls panic.
-/

namespace Up4

open F

/-- Case for `C24_panics`: adding to a cell outside the grid. -/
example (p : Profile) : ∃ e, (fieldGrid ![3, 4, 5] (fun _ => (60 : ℝ)) (fun _ _ => fin 1)).run p (.addToCell (fun _ => 3) (fin 1)) = .error e :=
  (C24_panics p _ (.addToCell (fun _ => 3) (fin 1)) trivial).2 ⟨0, .index, rfl⟩

/-- Case for `C26_empty_panics`: a selector with an empty list of radii. -/
example : ({ (Selector.default : Selector ℝ) with radius := [] }).isValid (fin 1) (fin 1) (fin 1) 3 = .error .index :=
  C26_empty_panics _ rfl _ _ _ _

/-- Case for `C31_reject`: `extract` from timestep 1 to 4 of a dataset with four timesteps. -/
example (p : Profile) (d : Dm (Timestep ℝ)) (hd : d.n = 4) : extract p d 0 1 4 = .error .explicit :=
  C31_reject p d 0 1 4 (Or.inr (by rw [hd]))

/-- Case for `C45_reject`: the system is `[0, 2]³` and the boundary `z = 3`. -/
example (p : Profile) (d : Dm (Timestep ℝ)) : circulationTime p d demoStats Selector.default 2 (fin 3) = .error .explicit :=
  C45_reject p d demoStats _ 2 _ (Or.inl (by change fin (2 : ℝ) < fin 3; rw [F.lt_fin]; norm_num))

/-- Case for `C46_reject`: the system is `[0, 2]³` and the boundaries `z = 1` and `z = 3`. -/
example (p : Profile) (d : Dm (Timestep ℝ)) : circulationTwoBoundary p d demoStats Selector.default 2 (fin 1) (fin 3) = .error .explicit :=
  C46_reject p d demoStats _ 2 _ _ (Or.inr (Or.inl (by change fin (2 : ℝ) < fin 3; rw [F.lt_fin]; norm_num)))

/-- Case for `C48_reject`: a rotation about axis 3. -/
example (r : Rotation ℝ) : r.setAngle (fin 1) (fin 3) = .error .index := (C48_reject r (fin 1) 3 le_rfl).1

/-- Case for `C51_reject`: two rows, the later one first. -/
example : interpolate [⟨fin 1, fun _ => fin (0 : ℝ)⟩, ⟨fin 0, fun _ => fin 1⟩] (fin 5) 10 = .error .explicit := by
  refine C51_reject _ _ _ (fun h => ?_)
  have h1 : fin (1 : ℝ) ≤ fin 0 := by simpa using h
  rw [F.le_fin] at h1
  norm_num at h1

/-- Case for `C57_reject`: the quantile 2. -/
example (field : Arr 3 (F ℝ)) : binaryThreshold field (fin 2) = .error .explicit := by
  refine C57_reject field _ (fun h => ?_)
  have h1 : fin (2 : ℝ) ≤ fin 1 := h.2
  rw [F.le_fin] at h1
  norm_num at h1

/-- Case for `C69_reject`: six columns are neither five nor eight. -/
example (lib : FitLib ℝ) (raw : List (List (F ℝ))) : ∃ e, idConvert lib ⟨[0, 1, 2, 3, 4, 5], false, false, fin 1, 7⟩ raw = .error e :=
  C69_reject lib _ raw (Or.inr (Or.inr (by decide)))

/-- Case for `C70_reject`: two files and one time. -/
example (a b : List (List (F ℝ))) : ∃ e, fileConvert [0, 1, 2, 3] [fin 0] [a, b] = .error e :=
  C70_reject _ _ _ (Or.inr (by simp))

/-- Case for `C72_reject`: a table of six rows. -/
example (lib : FitLib ℝ) (r : Row7 ℝ) : velocityPolynomParallel lib 7 [r, r, r, r, r, r] 7 2 = .error .explicit :=
  C72_reject lib _ 7 2 7 (Or.inr (Or.inl (by simp)))

/-- Case for `C72_interpolated_panics`: a longest piece of 200000 rows. -/
example (lib : FitLib ℝ) (seg : List (Row7 ℝ)) : ∃ e, chainTable lib ⟨[0, 1, 2, 3], true, true, fin 1, 7⟩ (fin 10) 200000 seg = .error e :=
  C72_interpolated_panics lib _ rfl _ _ le_rfl seg

/-- Case for `C53_one_panics`: one row, a fit over one point whose result is the constant. -/
example : velocityPolynom (⟨fun _ ys _ => some ys, fun x _ => x⟩ : FitLib ℝ) [⟨fin 1, fun _ => fin 5⟩] 1 2 = .error .index := by
  exact C53_one_panics _ _ [] 2 (fin 5) [] rfl

/-- Case for `C74_empty_panics`: the slice `data[2:1]` of three timesteps. -/
example (dflt : Timestep ℝ) : pySession .release demoP dflt [.slice (some 2) (some 1) none] = .error .explicit :=
  C74_empty_panics .release demoP (by norm_num [demoP]) (by norm_num [demoP]) demoP_complete (demoP.tidy_pdata rfl) dflt
    (some 2) (some 1) none (by decide) 2 1 rfl (by decide)

/-- Case for `C78_one_layer_panics`: a grid with one cell along `x`, seen along `z`. -/
example : quiverPlot (fieldGrid ![1, 3, 2] (fun _ => (1 : ℝ)) (fun _ _ => fin 1)) (2 : Fin 3) (.plane 0) .halfNode = .error .index :=
  (C78_one_layer_panics _ 2 (.plane 0) (fieldGrid_plottable _ (by intro a; fin_cases a <;> norm_num) _ _ (fun _ _ => Or.inr ⟨_, rfl⟩) 2 _
    (fun k hk => by cases hk; decide)) (Or.inl (by decide)) (Or.inl rfl)).1

/-- Case for `neighbours_explicit`: the neighbours of the cell `(1, 1, 1)` are the other 26 cells of `3 × 3 × 3`. -/
example : ((box27 0 0 0 ![1, 1, 1]).eraseIdx 13).length = 26 ∧ (![1, 1, 1] : CellId) ∉ (box27 0 0 0 ![1, 1, 1]).eraseIdx 13 := by
  rw [neighbours_explicit]
  refine ⟨rfl, ?_⟩
  decide

end Up4
