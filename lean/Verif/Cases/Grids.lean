import Verif.Props.UsedGrid
import Verif.Props.CartLookup
import Verif.Props.Accumulate
import Verif.Props.Outlier
import Verif.Props.Cylinder
import Verif.Props.VecGrid
import Verif.Props.CylBinary64

/-!
# Cases for the theorems on grids

Concrete cases that meet the hypotheses of theorems of `Props/{CartLookup,Accumulate,Outlier,Cylinder,VecGrid,UsedGrid}.lean`, with
what the theorem says of them. They are examples, not part of the proofs.
-/

namespace Up4

open F

/-- Case for `C02_isInside_iff`: on the box `[0,2]³` the corner is inside, and a position without an x coordinate is not. -/
example : (CartGeom.new (fun _ => 3) (finLimits (fun _ => (0 : ℝ)) (fun _ => 2))).isInside (finPos fun _ => 2) = true ∧
    ¬ (CartGeom.new (fun _ => 3) (finLimits (fun _ => (0 : ℝ)) (fun _ => 2))).isInside ![F.nan, fin 1, fin 1] = true := by
  constructor
  · rw [C02_isInside_iff]
    intro a; simp [CartGeom.new, finLimits, finPos]
  · rw [C02_isInside_iff]
    intro h
    exact (h 0).1 rfl

/-- Case for `C02_isInside_fin`: a box with different sides; (1, -1, 5) lies inside, (1, -1, 6) outside. -/
example : (CartGeom.new (fun _ => 3) (finLimits ![0, -2, (4 : ℝ)] ![1, 2, 5])).isInside (finPos ![1, -1, 5]) = true ∧
    ¬ (CartGeom.new (fun _ => 3) (finLimits ![0, -2, (4 : ℝ)] ![1, 2, 5])).isInside (finPos ![1, -1, 6]) = true := by
  constructor
  · rw [C02_isInside_fin]
    intro a; fin_cases a <;> norm_num
  · rw [C02_isInside_fin]
    intro h
    have : (6 : ℝ) ≤ 5 := (h 2).2
    norm_num at this

/-- Case for `C05_centres`: four cells over `[0,2]` have their centres 1/2 apart, the first 1/4 from the edge. -/
example : ∃ x : ℕ → ℝ, (CartGeom.new (fun _ => 4) (finLimits (fun _ => (0 : ℝ)) (fun _ => 2))).positions 1 =
    (List.range 4).map (fun i => fin (x i)) ∧ x 0 = 1 / 4 ∧ x 1 = 3 / 4 ∧ 2 - x 3 = 1 / 4 := by
  obtain ⟨x, h1, h2, _, _, h5, h6⟩ := C05_centres (fun _ => 4) (fun _ => (0 : ℝ)) (fun _ => 2) (fun _ => by norm_num) 1 (by norm_num)
  have h7 := h2 0
  norm_num at h5 h6 h7
  exact ⟨x, h1, by linarith, by linarith, by linarith⟩

theorem case_lookup (p : Profile) : (Geom.cart (CartGeom.new (fun _ => 1) (finLimits (fun _ => (0 : ℝ)) (fun _ => 1)))).lookup p
    (finPos fun _ => 0) = some (fun _ => 0) := by
  have hin : (unitGrid (K := ℝ)).geom.isInside (finPos fun _ => 0) = true := by
    change CartGeom.isInside (CartGeom.new (fun _ => 1) (finLimits (fun _ => (0 : ℝ)) (fun _ => 1))) _ = true
    refine (CartGeom.isInside_iff _ _).2 (fun a => ?_)
    simp [finPos, CartGeom.new, finLimits]
  obtain ⟨c, hc, hb⟩ := (fillable_cart p _ unit_isCart).2.isSome hin
  have hc0 : c = fun _ => 0 := by
    funext a; have := hb a; simpa [unitGrid, Grid.newCart, CartGeom.new, Geom.cells] using this
  subst hc0
  exact hc

theorem case_lookup_out (p : Profile) : (Geom.cart (CartGeom.new (fun _ => 1) (finLimits (fun _ => (0 : ℝ)) (fun _ => 1)))).lookup p
    (finPos fun _ => 7) = none := by
  have hc : ¬ (CartGeom.new (fun _ => 1) (finLimits (fun _ => (0 : ℝ)) (fun _ => 1))).isInside (finPos fun _ => 7) = true := by
    rw [C02_isInside_fin]
    intro h
    have : (7 : ℝ) ≤ 1 := (h 0).2
    norm_num at this
  unfold Geom.lookup Geom.cellId CartGeom.cellId
  simp only [hc]
  rfl

/-- Case for `C07_history` and `C08_mean`: on one cell over `[0,1]³`, the values 3 and 5 at the origin and 9 at (7,7,7): the cell holds two
values with the mean 4. -/
example (p : Profile) : ∃ g' g'', (Grid.newCart (fun _ => 1) (finLimits (fun _ => (0 : ℝ)) (fun _ => 1))).addAll p
      [(finPos fun _ => 0, fin 3), (finPos fun _ => 7, fin 9), (finPos fun _ => 0, fin 5)] = .ok g' ∧
    g'.st.weight.get (fun _ => 0) = fin 2 ∧ g'.divideByWeight = .ok g'' ∧ g''.st.data.get (fun _ => 0) = fin 4 := by
  have hB : InB (fun _ : Fin 3 => 1) (fun _ => 0) := fun _ => by norm_num
  obtain ⟨g', h1, h2, _⟩ := C07_history (K := ℝ) p (fun _ => 1) (finLimits (fun _ => 0) (fun _ => 1)) (fun _ => by norm_num)
    [(finPos fun _ => 0, fin 3), (finPos fun _ => 7, fin 9), (finPos fun _ => 0, fin 5)] (by norm_num)
  obtain ⟨g1, g'', k1, k2, k3⟩ := C08_mean (K := ℝ) p (fun _ => 1) (finLimits (fun _ => 0) (fun _ => 1)) (fun _ => by norm_num)
    [(finPos fun _ => 0, 3), (finPos fun _ => 7, 9), (finPos fun _ => 0, 5)]
  have e : g1 = g' := by
    have : Except.ok g1 = (Except.ok g' : Run (Grid ℝ)) := k1.symm.trans h1
    cases this; rfl
  subst e
  refine ⟨g1, g'', h1, ?_, k2, ?_⟩
  · rw [(h2 _ hB).1]
    simp [case_lookup, case_lookup_out]
  · have k := k3 _ hB
    dsimp only at k
    simp only [List.filter_cons, List.filter_nil, case_lookup, case_lookup_out] at k
    have := (k.2 (by simp)).1
    rw [this]
    congr 1
    simp
    norm_num

/-- Case for `C09_insert_get`: 7 inserted at the centre of the unit cube is read back at its corner; outside there is nothing. -/
example (p : Profile) : ∃ g' : Grid ℝ, (unitGrid (K := ℝ)).insert p (finPos fun _ => 1 / 2) (fin 7) = .ok g' ∧
    g'.getValue p (finPos fun _ => 1 / 2) = .ok (fin 7) ∧ g'.getValue p (finPos fun _ => 3) = .ok F.nan := by
  have hin : InBox (unitGrid (K := ℝ)).geom.limits (finPos fun _ => 1 / 2) := fun a => by
    simp [unitGrid, Grid.newCart, CartGeom.new, Geom.limits, finLimits, finPos]; norm_num
  obtain ⟨g', _, new, h1, _, h3, _, h5, _⟩ := C09_insert_get (K := ℝ) p unitGrid unit_isCart (finPos fun _ => 1 / 2) (finPos fun _ => 1 / 2)
    (fin 7) hin
  obtain ⟨g2, _, new2, k1, _, k3, k4, _, _⟩ := C09_insert_get (K := ℝ) p unitGrid unit_isCart (finPos fun _ => 1 / 2) (finPos fun _ => 3)
    (fin 7) hin
  have e : g2 = g' := by
    have : Except.ok g2 = (Except.ok g' : Run (Grid ℝ)) := k1.symm.trans h1
    cases this; rfl
  subst e
  refine ⟨g2, h1, by rw [h3, h5 hin rfl], ?_⟩
  rw [k3, k4]
  intro h
  have h := (h 0).2.2
  simp [unitGrid, Grid.newCart, CartGeom.new, Geom.limits, finLimits, finPos] at h

/-- Case for `C11_newZeros_partial`: the fresh unit grid has weight zero everywhere, and so has its `new_zeros`. -/
example : ∀ c, InB (unitGrid (K := ℝ)).geom.cells c → (unitGrid (K := ℝ)).newZeros.st.weight.get c = 0 :=
  (C11_newZeros_partial (unitGrid (K := ℝ))).2.2.2 (fun _ _ => rfl)

/-- Case for `C11_weights_kept`: a grid of weight 1 everywhere keeps it. -/
example (c : CellId) : (({ unitGrid (K := ℝ) with st := { (unitGrid (K := ℝ)).st with weight := ⟨fun _ => 1, fun _ => fin 1⟩ } } : Grid ℝ).newZeros).st.weight.get c = fin 1 := by
  rw [C11_weights_kept]

/-- A row of three cells with the values 1, 5 and NaN. -/
noncomputable def caseRow : Grid ℝ :=
  { Grid.newCart ![3, 1, 1] (finLimits (fun _ => 0) (fun _ => 1)) with
    st := ⟨⟨![3, 1, 1], fun c => if c 0 = 0 then fin 1 else if c 0 = 1 then fin 5 else F.nan⟩, ⟨![3, 1, 1], fun _ => fin 1⟩⟩ }

/-- Case for `C15_clamp`, `C15_bounded_idempotent`, `C15_mode0_idempotent` and `C15_unknown_mode`: with the threshold 2 mode 0 turns 1, 5, NaN into
1, 0, NaN and mode 1 into 1, 2, NaN; once more changes nothing; mode 7 raises. -/
example (p : Profile) : (∃ g g', caseRow.outlierRemoval p (fin 2) 0 = .ok g ∧ g.st.data.get ![0, 0, 0] = fin 1 ∧
      g.st.data.get ![1, 0, 0] = 0 ∧ g.st.data.get ![2, 0, 0] = F.nan ∧ g.outlierRemoval p (fin 2) 0 = .ok g' ∧ g'.st.data.Eqv g.st.data) ∧
    (∃ g g', caseRow.outlierRemoval p (fin 2) 1 = .ok g ∧ g.st.data.get ![1, 0, 0] = fin 2 ∧
      g.outlierRemoval p (fin 2) 1 = .ok g' ∧ g'.st.data.Eqv g.st.data) ∧
    caseRow.outlierRemoval p (fin 2) 7 = .error .explicit := by
  have h15 : ¬ (fin 1 : F ℝ) > fin 2 := by rw [gt_iff', lt_fin]; norm_num
  have h52 : (fin 5 : F ℝ) > fin 2 := by rw [gt_iff', lt_fin]; norm_num
  have hn2 : ¬ (F.nan : F ℝ) > fin 2 := by rw [gt_iff']; simp
  refine ⟨?_, ?_, C15_unknown_mode p _ _ 7 (by norm_num)⟩
  · obtain ⟨g, h1, _, _, _, h5⟩ := C15_clamp p caseRow (fin 2) 0 (Or.inl rfl)
    obtain ⟨g', h6, h7⟩ := C15_mode0_idempotent p _ _ _ h1
    exact ⟨g, g', h1, (h5 ![0, 0, 0]).2 h15, (h5 ![1, 0, 0]).1 h52, (h5 ![2, 0, 0]).2 hn2, h6, h7⟩
  · obtain ⟨g, h1, _, _, _, h5⟩ := C15_clamp p caseRow (fin 2) 1 (Or.inr rfl)
    obtain ⟨_, g', h6, _, _, h7⟩ := C15_bounded_idempotent p _ _ _ _ (Or.inl rfl) h1
    exact ⟨g, g', h1, (h5 ![1, 0, 0]).1 h52, h6, h7⟩

/-- Case for `C20_lookup` and `C20_never_err`: a position on the axis of the cylinder in `[0,4]³` has a cell, in the innermost ring that
contains radius 0. -/
example : ∃ c, (CylGeom.new (fun _ => 2) (finLimits (fun _ => (0 : ℝ)) (fun _ => 4))).cellId ![fin 2, fin 2, fin 1] = .ok (some c) ∧
    InB (fun _ => 2) c := by
  obtain ⟨c, s, h1, h2, _⟩ := C20_lookup (K := ℝ) (fun _ => 2) (fun _ => by norm_num) (fun _ => 0) (fun _ => 4) (fun _ => by norm_num)
    ![fin 2, fin 2, fin 1] (axis_inside _ 1 (by norm_num) (by norm_num))
  exact ⟨c, h1, h2⟩

/-- Case for `C21_cell_partial` and `C21_lower_half`: two layers over `[0,4]`; the height 5/2 is nearest to the edge between them and is
looked up in layer 0. -/
example : ∃ c, (CylGeom.new (fun _ => 2) (finLimits (fun _ => (0 : ℝ)) (fun _ => 4))).cellId ![fin 2, fin 2, fin (5 / 2)] = .ok (some c) ∧
    c 2 = 0 := by
  obtain ⟨c, s, θ, z, h1, _, _, _, hz, _, h2⟩ := C21_cell_partial (K := ℝ) (fun _ => 2) (fun _ => by norm_num) (fun _ => 0) (fun _ => 4)
    (fun _ => by norm_num) ![fin 2, fin 2, fin (5 / 2)] (axis_inside _ _ (by norm_num) (by norm_num))
  have hzz : z = 5 / 2 := by
    have : (fin (5 / 2) : F ℝ) = fin z := hz
    cases this; rfl
  subst hzz
  exact ⟨c, h1, C21_lower_half (k := 0) (by norm_num) h2 (by norm_num) (by norm_num) (by norm_num)⟩

/-- Case for `C21_upper_half`: the height 7/2 is in the upper half of layer 1 and is looked up there. -/
example : ∃ c, (CylGeom.new (fun _ => 2) (finLimits (fun _ => (0 : ℝ)) (fun _ => 4))).cellId ![fin 2, fin 2, fin (7 / 2)] = .ok (some c) ∧
    c 2 = 1 := by
  obtain ⟨c, s, θ, z, h1, _, _, _, hz, _, h2⟩ := C21_cell_partial (K := ℝ) (fun _ => 2) (fun _ => by norm_num) (fun _ => 0) (fun _ => 4)
    (fun _ => by norm_num) ![fin 2, fin 2, fin (7 / 2)] (axis_inside _ _ (by norm_num) (by norm_num))
  have hzz : z = 7 / 2 := by
    have : (fin (7 / 2) : F ℝ) = fin z := hz
    cases this; rfl
  subst hzz
  exact ⟨c, h1, C21_upper_half (k := 1) (by norm_num) h2 (by norm_num) (by norm_num) (by norm_num) (by norm_num)⟩

theorem case_axis : (CylGeom.new ![4, 1, 1] badLim).toCylindrical (finPos (K := B64) ![0, 0, 0]) 0 = F.fin 0 := by
  have hc0 : (CylGeom.new ![4, 1, 1] badLim).center 0 = F.fin 0 := badLim_mid
  have hc1 : (CylGeom.new ![4, 1, 1] badLim).center 1 = F.fin 0 := badLim_mid
  unfold CylGeom.toCylindrical
  rw [hc0, hc1]
  change (((F.fin 0 - F.fin 0) * (F.fin 0 - F.fin 0) + (F.fin 0 - F.fin 0) * (F.fin 0 - F.fin 0) : F B64)).sqrt = _
  rw [F.sub_fin, sub_zero, F.rnd_zero, mul_fin, mul_zero, F.rnd_zero, add_fin, add_zero, F.rnd_zero]
  unfold F.sqrt
  dsimp only
  rw [if_neg (by norm_num), show (0 : B64) = 0 * 0 by norm_num]
  have := B64.root' 0 le_rfl F.rnd_zero
  rw [mul_zero] at this ⊢
  exact this

/-- Case for `C20_lookup_rounded_partial` in binary64: the origin, on the axis of the cylinder of four rings in `[-3,3]² × [0,1]`, has a cell,
although the computed outermost radius is less than 3 (`C20_false`). -/
example : ∃ c, (CylGeom.new ![4, 1, 1] badLim).cellId (finPos (K := B64) ![0, 0, 0]) = .ok (some c) ∧ InB ![4, 1, 1] c := by
  have h1 : Arith.rnd (1 : B64) = F.fin 1 := F.rnd_one
  have hrp : (CylGeom.new ![4, 1, 1] badLim).rpositions = CylGeom.shells (F.fin 3) 4 4 0 := by
    change CylGeom.shells (CylGeom.outerRadius badLim) 4 4 0 = _
    rw [badLim_radius]
  have hin : (CylGeom.new ![4, 1, 1] badLim).isInside (finPos (K := B64) ![0, 0, 0]) = true := by
    unfold CylGeom.isInside
    simp only [Bool.and_eq_true, decide_eq_true_eq]
    refine ⟨⟨?_, ?_⟩, ?_⟩
    · rw [case_axis, show (CylGeom.new ![4, 1, 1] badLim).radius = F.fin 3 from badLim_radius]; exact (F.le_fin _ _).2 (by norm_num)
    · have hc0 : (CylGeom.new ![4, 1, 1] badLim).center 0 = F.fin 0 := badLim_mid
      have hc1 : (CylGeom.new ![4, 1, 1] badLim).center 1 = F.fin 0 := badLim_mid
      have : (CylGeom.new ![4, 1, 1] badLim).toCylindrical (finPos (K := B64) ![0, 0, 0]) 1 = Arith.atan2K 0 0 := by
        unfold CylGeom.toCylindrical
        rw [hc0, hc1]
        change F.atan2 (F.fin 0 - F.fin 0) (F.fin 0 - F.fin 0) = _
        rw [F.sub_fin, sub_zero, F.rnd_zero]; rfl
      rw [this]
      obtain ⟨t, h1, h2, h3⟩ := LawfulArith.atan2_range (0 : B64) 0
      rw [h1]
      exact ⟨(F.le_fin _ _).2 h2, (F.le_fin _ _).2 h3⟩
    · exact ⟨(F.le_fin _ _).2 le_rfl, (F.le_fin _ _).2 zero_le_one⟩
  have hlast : ∃ s, (CylGeom.new ![4, 1, 1] badLim).rpositions[3]? = some s ∧
      (CylGeom.new ![4, 1, 1] badLim).toCylindrical (finPos (K := B64) ![0, 0, 0]) 0 ≤ s.2 := by
    rw [hrp, case_axis]
    simp only [CylGeom.shells, B64.r1, B64.r2, B64.r3, B64.r4]
    exact ⟨_, rfl, (F.le_fin _ _).2 (by norm_num)⟩
  obtain ⟨c, s, h1, h2, _⟩ := C20_lookup_rounded_partial (K := B64) ![4, 1, 1] (fun a => by fin_cases a <;> norm_num) badLim
    (lo := 0) (hi := 1) (d := 1) rfl (by rw [F.sub_fin, sub_zero, h1]) zero_le_one (by rw [badLim_radius]; simp)
    (finPos (K := B64) ![0, 0, 0]) hin hlast
  exact ⟨c, h1, h2⟩

/-- Case for `C23_cartesian`: on a Cartesian grid the velocity (1, 2, 3) at (5, 5, 5) is recorded as it is. -/
example : (VecGrid.new (Grid.newCart (fun _ => 3) (finLimits (fun _ => (0 : ℝ)) (fun _ => 9)))).velocityCalculation (finPos fun _ => 5)
    ![fin 1, fin 2, fin 3] 1 = fin 2 := by
  rw [C23_cartesian]; rfl

/-- Case for `C24_componentwise` and `C24_newZeros`: dividing a vector grid by 1 divides its components; `new_zeros` works, `set_data` raises. -/
example : (∃ g', (VecGrid.new (unitGrid (K := ℝ))).run .release (.divideByScalar (fin 1)) = .ok g' ∧
      ∀ a, (GridOp.divideByScalar (fin 1)).run .release ((VecGrid.new (unitGrid (K := ℝ))).comp a) = .ok (g'.comp a)) ∧
    (VecGrid.new (unitGrid (K := ℝ))).run .release (.setData ⟨fun _ => 1, fun _ => fin 1⟩) = .error .explicit :=
  ⟨⟨_, rfl, ((C24_componentwise .release (VecGrid.new (unitGrid (K := ℝ))) _ (.divideByScalar (fin 1)) trivial).1 rfl).2⟩, (C24_newZeros .release _ _).2⟩

end Up4
