import Verif.Props.Sorting
import Verif.Props.Interpolate
import Verif.Props.Velocity
import Verif.Props.VelocityFit
import Verif.Props.Parallel
import Verif.Props.Maths
import Verif.Props.Hdf5
import Verif.Props.Items

/-!
# Cases for the theorems on the numerical tools and the files

Concrete cases that meet the hypotheses of theorems of `Props/{Sorting,Interpolate,Velocity,VelocityFit,Parallel,Maths,Hdf5,Items}.lean`.
-/

namespace Up4

open F

/-- Case for `C49_sortlist`: the ids 30, 10, 20: the order is one of the places 0, 1, 2, and place 1 comes before place 0 in it. -/
example : (makeSortlist [30, 10, 20]).Perm [0, 1, 2] ∧ Ordered (· < ·) (fun i => [30, 10, 20].getD i 0) (makeSortlist [30, 10, 20]) :=
  C49_sortlist [30, 10, 20]

/-- Case for `C49_scalars`: the order 1, 2, 0 of the letters c, a, b. -/
example : ∃ out, sortByArray ['c', 'a', 'b'] [1, 2, 0] = .ok out ∧ out = ['a', 'b', 'c'] := by
  obtain ⟨out, h1, h2, _⟩ := C49_scalars ['c', 'a', 'b'] [1, 2, 0] (by decide)
  refine ⟨out, h1, ?_⟩
  have h3 : out.map some = ['a', 'b', 'c'].map some := h2
  exact List.map_injective_iff.2 (Option.some_injective _) h3

/-- Case for `C49_vectors`: two vectors exchanged; their coordinates stay together. -/
example : ∃ out, sortByArray (flat3 [![1, 2, 3], ![4, 5, 6]]) [1, 0] = .ok (flat3 out) ∧ out = [![4, 5, 6], ![1, 2, 3]] := by
  obtain ⟨out, h1, h2, _⟩ := C49_vectors [(![1, 2, 3] : Fin 3 → ℕ), ![4, 5, 6]] [1, 0] (by decide)
  refine ⟨out, h1, ?_⟩
  have h3 : out.map some = [(![4, 5, 6] : Fin 3 → ℕ), ![1, 2, 3]].map some := h2
  exact List.map_injective_iff.2 (Option.some_injective _) h3

/-- Case for `C50_nan`: three rows, the key of one of them is NaN. -/
example : sortByColumn (fun r : F ℝ × ℕ => r.1) [(fin 3, 0), (F.nan, 1), (fin 1, 2)] = .error .unwrap :=
  C50_nan _ _ (by simp) (F.nan, 1) (by simp) rfl

/-- Case for `C50_isSorted`: 1, 1, 2 is sorted, 1, NaN is not. -/
example : isSorted [fin 1, fin 1, fin (2 : ℝ)] = true ∧ ¬ isSorted [fin (1 : ℝ), F.nan] = true := by
  constructor
  · rw [C50_isSorted]; simp
  · rw [C50_isSorted]; simp

/-- Case for `C51_table_partial`: three rows and five output rows; the first and the last are those given. -/
example : ∃ out, interpolate (K := ℝ) [⟨fin 0, fun _ => fin 0⟩, ⟨fin 1, fun _ => fin 5⟩, ⟨fin 2, fun _ => fin 6⟩] (fin 2) 5 = .ok out ∧
    out.length = 5 ∧ out[0]? = some ⟨fin 0, fun _ => fin 0⟩ ∧ out[4]? = some ⟨fin 2, fun _ => fin 6⟩ ∧
    ∃ row, out[1]? = some row ∧ row.t = fin (2 / 5) := by
  obtain ⟨out, h1, h2, h3, h4, h5⟩ := C51_table_partial (K := ℝ) [⟨fin 0, fun _ => fin 0⟩, ⟨fin 1, fun _ => fin 5⟩, ⟨fin 2, fun _ => fin 6⟩] (fin 2) 5
    (by simp) (by simp) (by norm_num)
  obtain ⟨row, r1, r2, _⟩ := h5 1 (by norm_num) (by norm_num)
  refine ⟨out, h1, h2, h3, h4, row, r1, ?_⟩
  rw [r2, F.eofNat, F.eofNat, F.ediv _ (by norm_num), F.emul]
  norm_num

/-- A fit that answers `7 + 3 t` whatever it is asked. -/
noncomputable def lineLib : FitLib ℝ where
  polyfit _ _ _ := some [fin 7, fin 3, 0]
  powf := squareLib.powf

/-- Case for `C53_linear_partial`: five rows of the motion `7 + 3 t`, window 3: three rows with velocity 3. -/
example : ∃ out, velocityPolynom lineLib (table 5 (fun j => (j : ℝ)) fun j _ => 7 + 3 * (j : ℝ)) 3 2 = .ok out ∧ out.length = 3 ∧
    ∃ row, out[2]? = some row ∧ row.t = fin 3 ∧ row.v 1 = fin 3 := by
  obtain ⟨out, h1, h2, h3⟩ := C53_linear_partial lineLib squareLib_pow 5 (fun j => (j : ℝ)) (fun j _ => 7 + 3 * (j : ℝ))
    (fun i j hij _ => by exact_mod_cast hij) 1 2 (by omega) (by omega) (fun _ _ => 7) (fun _ _ => 3) (fun _ _ _ => rfl)
  obtain ⟨row, r1, r2, _, r4⟩ := h3 2 (by omega)
  refine ⟨out, h1, h2, row, r1, ?_, r4 1⟩
  rw [r2]; norm_num

/-- Case for `C53_motion_partial`: five rows of the motion `t²` in every coordinate, window 3, degree 2: the velocity given at 1 s is the 4 m/s of 2 s. -/
example : ∃ out, velocityPolynom choiceLib (table 5 (fun j => (j : ℝ)) fun j _ => ((Polynomial.X ^ 2 : Polynomial ℝ)).eval (j : ℝ)) 3 2 = .ok out ∧
    ∃ row, out[0]? = some row ∧ row.t = fin 1 ∧ row.v 0 = fin 4 := by
  obtain ⟨out, h1, h2, h3⟩ := C53_motion_partial choiceLib squareLib_pow choiceLib_exact 5 (fun j => (j : ℝ)) (fun _ => Polynomial.X ^ 2)
    (fun i j hij _ => by exact_mod_cast hij) 1 2 (by omega) (by omega) (by omega) (fun _ => by simp)
  obtain ⟨row, r1, r2, _, r4⟩ := h3 0 (by omega)
  refine ⟨out, h1, row, r1, ?_, ?_⟩
  · rw [r2]; norm_num
  · rw [r4 0]; congr 1; simp; norm_num

/-- Case for `C53_even`: a window of eight. -/
example : velocityPolynom squareLib (table 20 (fun j => (j : ℝ)) fun j _ => (j : ℝ) ^ 2) 8 2 = .error .explicit := C53_even _ _ _ _ rfl

/-- Case for `C55_meshgrid3` and `C55_flatten3`: the mesh of (1, 2), (3), (4, 5, 6); the last entry of the flattened z mesh is 6. -/
example : ∃ xx yy zz : Arr 3 (F ℝ), meshgrid3 [fin 1, fin 2] [fin 3] [fin 4, fin 5, fin 6] = .ok (xx, yy, zz) ∧ xx.get ![1, 0, 2] = fin 2 ∧
    zz.get ![1, 0, 2] = fin 6 ∧ (flatten zz)[5]? = some (fin 6) := by
  obtain ⟨xx, yy, zz, h1, _, _, hz, h2⟩ := C55_meshgrid3 [fin (1 : ℝ), fin 2] [fin 3] [fin 4, fin 5, fin 6]
  obtain ⟨h3, _, h4⟩ := h2 1 0 2 (by simp) (by simp) (by simp)
  refine ⟨xx, yy, zz, h1, h3, h4, ?_⟩
  have := (C55_flatten3 zz 2 1 3 hz).2 1 0 2 (by norm_num) (by norm_num) (by norm_num)
  rw [h4] at this
  exact this

/-- Case for `C56_skip` and `C56_none`: NaN entries do not matter; without others there is no mean. -/
example : nanMean [fin (1 : ℝ), F.nan, fin 3] = nanMean [fin 1, fin 3] ∧ nanMean [(F.nan : F ℝ), F.nan] = F.nan := by
  refine ⟨?_, (C56_none _ (by simp)).1⟩
  rw [(C56_skip _).1]
  rfl

/-- Case for `C60_pdata_partial` and `C60_pdata_value`: a file with one particle, with types, radii, densities and the id 0. -/
example : ∃ ts, (⟨.pdata, [], [⟨some [0, 1], some [fun _ => fin 5, fun _ => fin 6], some [fun _ => 0, fun _ => 1], some [1, 1],
      some [fin 8, fin 9], some [1, 1], some [F.ofNat 0, F.ofNat 0]⟩], 2, 1⟩ : H5 ℝ).unbuffered 1 = .ok ts ∧
    ts.position[0]? = some (fun _ => fin 6) ∧ ts.density[0]? = some (fin 9) := by
  have two : ∀ {α : Type} (a b : α), LongEnough 2 (some [a, b]) := by
    intro α a b x h; cases h; exact le_refl 2
  set h : H5 ℝ := ⟨.pdata, [], [⟨some [0, 1], some [fun _ => fin 5, fun _ => fin 6], some [fun _ => 0, fun _ => 1], some [1, 1],
      some [fin 8, fin 9], some [1, 1], some [F.ofNat 0, F.ofNat 0]⟩], 2, 1⟩ with hh
  have hc : h.Complete := by
    refine ⟨by norm_num [hh], le_refl 1, ?_, ?_⟩
    · intro g hg
      cases hg
      exact ⟨rfl, two _ _⟩
    · intro g hg
      simp only [hh, List.take_succ_cons, List.take_zero, List.mem_cons, List.not_mem_nil, or_false] at hg
      subst hg
      exact ⟨rfl, rfl, two _ _, two _ _, two _ _, two _ _, two _ _⟩
  obtain ⟨ts, e, _⟩ := C60_pdata_partial h rfl rfl hc _ rfl rfl rfl rfl ⟨_, rfl, le_refl 2, by simp⟩ 1 (by norm_num [hh])
  obtain ⟨ts', e', _, _, _, _, _, _, _, _, hp, _, _, _, _, hd, _⟩ := C60_pdata_value h rfl rfl hc _ rfl rfl rfl rfl (two _ _) 1 (by norm_num [hh])
  obtain rfl : ts = ts' := by rw [e] at e'; cases e'; rfl
  exact ⟨ts, e, hp, hd _ rfl⟩

/-- Case for `C72_agrees_partial`: eight rows and the window of seven: both computations of the velocities are the same. -/
example : velocityPolynomParallel squareLib 7 (List.replicate 8 ⟨0, fun _ => 0, fun _ => nan⟩) 7 2 =
    velocityPolynom squareLib ((List.replicate 8 ⟨0, fun _ => 0, fun _ => nan⟩ : List (Row7 ℝ)).map Row7.four) 7 2 :=
  C72_agrees_partial _ _ _ _ (le_refl 7) (by simp)

/-- Case for `C75_outside_partial`: index 7 of three timesteps; an error on a file by particles, the first timestep on a file by timesteps in
a release build. -/
example (dflt : Timestep ℝ) : (∃ e, pySession .release demoP dflt [.int 7] = .error e) ∧ (∃ e, pySession .debug demoP dflt [.int (-4)] = .error e) := by
  have key := fun p i => C75_outside_partial (K := ℝ) p demoP (by norm_num [demoP]) (by norm_num [demoP]) demoP_complete (demoP.tidy_pdata rfl) dflt i
  have hn : demoP.n = 3 := rfl
  exact ⟨(key .release 7 (by rw [hn]; norm_num) (by norm_num)).1 (Or.inr rfl), (key .debug (-4) (by rw [hn]; norm_num) (by norm_num)).1 (Or.inl rfl)⟩

end Up4
