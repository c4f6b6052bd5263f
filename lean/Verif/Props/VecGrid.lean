import Verif.Model.VecGrid
import Verif.Props.Shape
import Verif.Props.Cylinder

set_option linter.unusedSectionVars false

/-! # C23, C24: vector grids -/

namespace Up4
open F

variable {K : Type} [Field K] [LinearOrder K] [IsStrictOrderedRing K] [FloorRing K] [Arith K]

/-! ### C23 -/

/-- **C23 (Cartesian).** The stored components are the velocity itself. -/
theorem C23_cartesian (cells : CellId) (lim : Limits K) (pos : Pos K) (vel : Fin 3 → F K) :
    (VecGrid.new (Grid.newCart cells lim)).velocityCalculation pos vel = vel := rfl

/-- The velocity `(vx, vy)` at offset `(x, y)` from the axis of a cylinder, at distance `r > 0`, has radial
component `vr` and angular velocity `w`: `v = vr·e_r + r·w·e_φ` with `e_r = (x, y)/r`, `e_φ = (-y, x)/r`. -/
def IsPolar (x y r vx vy vr w : K) : Prop :=
  vx = vr * (x / r) + r * w * (-y / r) ∧ vy = vr * (y / r) + r * w * (x / r)

section exact
variable [ExactArith K] [LawfulArith K]

/-- **C23 (cylinder), partial.** Full property: on a cylindrical vector grid the stored components are the
radial velocity, the angular velocity about the cylinder axis and the axial velocity.  Proved (exact
arithmetic) for grids whose limits are symmetric about the origin, so that the cylinder axis is the z axis, at
every position off the axis; for other grids it is false, see `C23_false`. -/
theorem C23_cylinder_partial (cells : CellId) (lo hi : Fin 3 → K) (hx : hi 0 = -lo 0) (hy : hi 1 = -lo 1)
    (x v : Fin 3 → K) (hne : x 0 ≠ 0 ∨ x 1 ≠ 0) :
    ∃ r vr w, 0 < r ∧ r * r = x 0 * x 0 + x 1 * x 1 ∧
      (VecGrid.new (Grid.newCyl cells (finLimits lo hi))).velocityCalculation (finPos x) (finPos v) =
        ![fin vr, fin w, fin (v 2)] ∧
      IsPolar (x 0) (x 1) r (v 0) (v 1) vr w ∧
      vr * vr + (r * w) * (r * w) = v 0 * v 0 + v 1 * v 1 := by
  have hmid : ∀ a : Fin 3, hi a = -lo a → CylGeom.mid (finLimits lo hi a) = (fin 0 : F K) := by
    intro a ha
    unfold CylGeom.mid finLimits
    dsimp only
    rw [eadd, ha, add_neg_cancel, eofNat, ediv _ (by norm_num), zero_div]
  have hpos : 0 < x 0 * x 0 + x 1 * x 1 := by
    rcases hne with h | h
    · have := mul_self_pos.2 h; have := mul_self_nonneg (x 1); linarith
    · have := mul_self_pos.2 h; have := mul_self_nonneg (x 0); linarith
  obtain ⟨r, hr1, hr2, hr3⟩ := ExactArith.sqrt_eq (x 0 * x 0 + x 1 * x 1) hpos.le
  have hr : 0 < r := lt_of_le_of_ne hr2 (by rintro rfl; rw [mul_zero] at hr3; exact hpos.ne hr3)
  have hc : (CylGeom.new cells (finLimits lo hi)).toCylindrical (finPos x) 0 = fin r := by
    unfold CylGeom.toCylindrical
    have c0 : (CylGeom.new cells (finLimits lo hi)).center 0 = fin 0 := hmid 0 hx
    have c1 : (CylGeom.new cells (finLimits lo hi)).center 1 = fin 0 := hmid 1 hy
    rw [c0, c1]
    change (((fin (x 0) - fin 0) * (fin (x 0) - fin 0) + (fin (x 1) - fin 0) * (fin (x 1) - fin 0) : F K)).sqrt = _
    rw [esub, esub, sub_zero, sub_zero, emul, emul, eadd]
    unfold F.sqrt
    dsimp only
    rw [if_neg (not_lt.2 hpos.le), hr1]
  refine ⟨r, (x 0 * v 0 + x 1 * v 1) / r, (x 0 * v 1 - x 1 * v 0) / (x 0 * x 0 + x 1 * x 1), hr, hr3, ?_, ?_, ?_⟩
  · change ![(fin (x 0) * fin (v 0) + fin (x 1) * fin (v 1)) /
        (CylGeom.new cells (finLimits lo hi)).toCylindrical (finPos x) 0,
      (fin (x 0) * fin (v 1) - fin (x 1) * fin (v 0)) / (fin (x 0) * fin (x 0) + fin (x 1) * fin (x 1)), fin (v 2)] = _
    rw [hc]
    simp only [emul, eadd, esub]
    rw [ediv _ hr.ne', ediv _ hpos.ne']
  · have hr0 := hr.ne'
    rw [← hr3]
    constructor
    · have e : r * r * v 0 = (x 0 * x 0 + x 1 * x 1) * v 0 := by rw [hr3]
      field_simp
      linear_combination e
    · have e : r * r * v 1 = (x 0 * x 0 + x 1 * x 1) * v 1 := by rw [hr3]
      field_simp
      linear_combination e
  · have hr0 := hr.ne'
    rw [← hr3]
    have e : ((x 0 * v 0 + x 1 * v 1) ^ 2 + (x 0 * v 1 - x 1 * v 0) ^ 2) = r * r * (v 0 * v 0 + v 1 * v 1) := by
      rw [hr3]; ring
    field_simp
    linear_combination e

end exact

/-- Witness for `C23_cylinder_partial`. -/
example : ∃ (lo hi x : Fin 3 → ℝ), hi 0 = -lo 0 ∧ hi 1 = -lo 1 ∧ (x 0 ≠ 0 ∨ x 1 ≠ 0) :=
  ⟨![-1, -2, 0], ![1, 2, 5], ![1, 0, 0], by simp, by simp, by simp⟩

/-- **C23 is false for grids away from the origin**: on the cylinder over `[0,2]×[0,2]`, a particle at
`(2, 1)` moving straight away from the axis `(1, 1)` with velocity `(1, 0)` is given a non-zero angular
velocity, in every lawful arithmetic. -/
theorem C23_false [LawfulArith K] (cells : CellId) :
    (CylGeom.new cells (finLimits (![0, 0, 0] : Fin 3 → K) ![2, 2, 1])).center 0 = fin 1 ∧
    (CylGeom.new cells (finLimits (![0, 0, 0] : Fin 3 → K) ![2, 2, 1])).center 1 = fin 1 ∧
    ∃ w : K, (VecGrid.new (Grid.newCyl cells (finLimits (![0, 0, 0] : Fin 3 → K) ![2, 2, 1]))).velocityCalculation
      (finPos ![2, 1, 0]) (finPos ![1, 0, 0]) 1 = fin w ∧ w < 0 := by
  have n2 : Arith.rnd (2 : K) = fin 2 := by have := F.rnd_nat (K := K) 2 (by norm_num); simpa using this
  have n4 : Arith.rnd (4 : K) = fin 4 := by have := F.rnd_nat (K := K) 4 (by norm_num); simpa using this
  have n5 : Arith.rnd (5 : K) = fin 5 := by have := F.rnd_nat (K := K) 5 (by norm_num); simpa using this
  have hmid : CylGeom.mid ((fin 0 : F K), fin 2) = fin 1 := by
    unfold CylGeom.mid
    have h2 : (F.ofNat 2 : F K) = fin 2 := by rw [F.ofNat_eq 2 (by norm_num)]; norm_num
    rw [add_fin, zero_add, n2, h2, div_fin_ne _ (by norm_num), show (2 / 2 : K) = 1 by norm_num, F.rnd_one]
  refine ⟨hmid, hmid, ?_⟩
  change ∃ w : K, (fin 2 * fin 0 - fin 1 * fin 1) / (fin 2 * fin 2 + fin 1 * fin 1) = fin w ∧ w < 0
  rw [mul_fin, mul_fin, mul_fin, show (2 * 2 : K) = 4 by norm_num, n4, mul_zero, F.rnd_zero, mul_one, F.rnd_one,
    add_fin, show (4 + 1 : K) = 5 by norm_num, n5, F.sub_fin, zero_sub, LawfulArith.rnd_neg, F.rnd_one,
    F.neg_fin, div_fin_ne _ (by norm_num)]
  have hrep : Arith.rnd (1 / 8 : K) = fin (1 / 8) := by
    have := LawfulArith.rnd_dyadic (K := K) 1 3 (by norm_num) (by norm_num)
    norm_num at this ⊢; exact this
  have hrep' : F.Rep (-(1 / 8) : K) := by unfold F.Rep; rw [LawfulArith.rnd_neg, hrep]; rfl
  have hrep1 : F.Rep (-1 : K) := by unfold F.Rep; rw [LawfulArith.rnd_neg, F.rnd_one]; rfl
  obtain ⟨w, h1, _, h3⟩ := F.rnd_between (x := (-1 / 5 : K)) hrep1 hrep' (by norm_num) (by norm_num)
  exact ⟨w, h1, by linarith⟩

/-! ### C24 -/

/-- Perform one grid operation on a vector grid (src/grid/vector_grid.rs:100-246). -/
def VecGrid.run (p : Profile) (g : VecGrid K) : GridOp K → Run (VecGrid K)
  | .addToCell c v => g.addToCell c v
  | .addValue pos v => g.addValue p pos v
  | .addTrajectoryValue a b v => g.addTrajectoryValue p a b v
  | .divideByArray o => g.divideByArray o
  | .divideByScalar v => g.divideByScalar v
  | .divideByWeight => g.divideByWeight
  | .insert pos v => g.insert p pos v
  | .newZeros => .ok g.newZeros
  | .setData d => g.setData d
  | .setWeights w => g.setWeights w
  | .outlierRemoval t m => g.outlierRemoval p t m

/-- The operations that act on each component (all but `new_zeros` and `set_data`). -/
def GridOp.Componentwise : GridOp K → Prop
  | .newZeros => False
  | .setData _ => False
  | _ => True

theorem VecGrid.each_iff (f : Grid K → Run (Grid K)) (g g' : VecGrid K) :
    VecGrid.each f g = .ok g' ↔ g'.cyl = g.cyl ∧ ∀ a, f (g.comp a) = .ok (g'.comp a) := by
  unfold VecGrid.each
  constructor
  · intro h
    obtain ⟨a, h0, h⟩ := run_bind_inv h
    obtain ⟨b, h1, h⟩ := run_bind_inv h
    obtain ⟨c, h2, h⟩ := run_bind_inv h
    cases h
    refine ⟨rfl, fun i => ?_⟩
    fin_cases i
    · exact h0
    · exact h1
    · exact h2
  · rintro ⟨hc, h⟩
    rw [h 0, h 1, h 2]
    simp only [run_bind_ok, run_pure]
    congr 1
    cases g' with
    | mk comp cyl =>
      simp only at hc
      subst hc
      congr 1
      funext i; fin_cases i <;> rfl

/-- A componentwise operation on a vector grid succeeds with result `g'` exactly when the same scalar
operation succeeds on every component with the components of `g'`. -/
theorem C24_componentwise (p : Profile) (g g' : VecGrid K) (op : GridOp K) (hop : op.Componentwise) :
    g.run p op = .ok g' ↔ g'.cyl = g.cyl ∧ ∀ a, op.run p (g.comp a) = .ok (g'.comp a) := by
  have key := VecGrid.each_iff (fun x => op.run p x) g g'
  cases op with
  | newZeros => exact hop.elim
  | setData d => exact hop.elim
  | _ => exact key

/-- A componentwise operation on a vector grid panics exactly when it panics on some component. -/
theorem C24_panics (p : Profile) (g : VecGrid K) (op : GridOp K) (hop : op.Componentwise) :
    (∃ e, g.run p op = .error e) ↔ ∃ a e, op.run p (g.comp a) = .error e := by
  constructor
  · rintro ⟨e, h⟩
    by_contra hc
    push Not at hc
    have : ∀ a, ∃ x, op.run p (g.comp a) = .ok x := by
      intro a
      cases hx : op.run p (g.comp a) with
      | ok x => exact ⟨x, rfl⟩
      | error e => exact absurd hx (hc a e)
    choose x hx using this
    have := (C24_componentwise p g ⟨x, g.cyl⟩ op hop).2 ⟨rfl, hx⟩
    rw [h] at this; cases this
  · rintro ⟨a, e, h⟩
    cases hx : g.run p op with
    | error e => exact ⟨e, rfl⟩
    | ok g' => have := ((C24_componentwise p g g' op hop).1 hx).2 a; rw [h] at this; cases this

/-- **C24.** Any history of componentwise operations on a vector grid gives in each component exactly the
result of that history on the component alone. -/
theorem C24_history (p : Profile) (g g' : VecGrid K) (ops : List (GridOp K))
    (hops : ∀ op ∈ ops, op.Componentwise) :
    ops.foldlM (fun g op => VecGrid.run p g op) g = .ok g' ↔
      g'.cyl = g.cyl ∧ ∀ a, ops.foldlM (fun g op => op.run p g) (g.comp a) = .ok (g'.comp a) := by
  induction ops generalizing g with
  | nil =>
    simp only [List.foldlM_nil, run_pure, Except.ok.injEq]
    constructor
    · rintro rfl; exact ⟨rfl, fun _ => rfl⟩
    · rintro ⟨h1, h2⟩
      cases g; cases g'
      simp only at h1 h2
      subst h1
      congr 1
      funext a; exact h2 a
  | cons op l ih =>
    have hl : ∀ op ∈ l, op.Componentwise := fun o ho => hops o (by simp [ho])
    have h0 := hops op (by simp)
    simp only [List.foldlM_cons]
    constructor
    · intro h
      obtain ⟨g1, e1, h⟩ := run_bind_inv h
      obtain ⟨hc, hcomp⟩ := (C24_componentwise p g g1 op h0).1 e1
      obtain ⟨hc', hcomp'⟩ := (ih g1 hl).1 h
      refine ⟨hc'.trans hc, fun a => ?_⟩
      rw [hcomp a, run_bind_ok]; exact hcomp' a
    · rintro ⟨hc, h⟩
      choose x hx1 hx2 using fun a => run_bind_inv (h a)
      have e1 := (C24_componentwise p g ⟨x, g.cyl⟩ op h0).2 ⟨rfl, hx1⟩
      rw [e1, run_bind_ok]
      exact (ih ⟨x, g.cyl⟩ hl).2 ⟨hc, hx2⟩

/-- `new_zeros` copies the first component's weights into all three; `set_data` is not implemented. -/
theorem C24_newZeros (p : Profile) (g : VecGrid K) (d : Arr 3 (F K)) :
    (∃ g', g.run p .newZeros = .ok g' ∧ ∀ a, (g'.comp a) = (g.comp 0).newZeros) ∧
    g.run p (.setData d) = .error .explicit :=
  ⟨⟨_, rfl, fun _ => rfl⟩, rfl⟩

/-- Witness for `C24_history`: a history on a vector grid that succeeds. -/
example (lim : Limits ℝ) : ∃ g', ([.divideByScalar 1, .outlierRemoval 0 1] : List (GridOp ℝ)).foldlM
    (fun g op => VecGrid.run .release g op) (VecGrid.new (Grid.newCart (fun _ => 3) lim)) = .ok g' :=
  ⟨_, rfl⟩

end Up4
