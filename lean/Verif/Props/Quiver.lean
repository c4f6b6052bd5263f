import Verif.Props.Plot

set_option linter.unusedSectionVars false

/-! # C76-C79: quiver plots -/

namespace Up4
open F
open Selector (at')

variable {K : Type} [Field K] [LinearOrder K] [IsStrictOrderedRing K] [FloorRing K] [Arith K]

/-- The requirements common to the theorems on plots of vector grids: a regular vector grid, a plane or depth average that exists, and at least one
cell along both axes of the plane. -/
structure VecGrid.Plottable (g : VecGrid K) (a : Fin 3) (sel : Sel) : Prop where
  regular : g.Regular
  shows : ∀ k, Shows (g.comp k) a sel
  some_u : 0 < (g.comp 0).geom.cells (absc a)
  some_v : 0 < (g.comp 0).geom.cells (ordi a)

/-- The first axis of the plane normal to axis `a`: `y` for the `yz` plane, `x` for the others. -/
theorem absc_axes : absc (0 : Fin 3) = 1 ∧ absc (1 : Fin 3) = 0 ∧ absc (2 : Fin 3) = 0 := ⟨rfl, rfl, rfl⟩
/-- The second axis: `z`, `z`, `y`. -/
theorem ordi_axes : ordi (0 : Fin 3) = 2 ∧ ordi (1 : Fin 3) = 2 ∧ ordi (2 : Fin 3) = 1 := ⟨rfl, rfl, rfl⟩

/-- The place in the plot of cell `(i, j)` of the plane. -/
def placeOf (g : Geom K) (a : Fin 3) (i j : ℕ) : F K × F K := (posAt g (absc a) i, posAt g (ordi a) j)

/-- The speed within the plane shown at `(i, j)`. -/
noncomputable def speedAt (g : VecGrid K) (a : Fin 3) (sel : Sel) (i j : ℕ) : F K :=
  F.hypot (shown (g.comp (absc a)) a sel i j) (shown (g.comp (ordi a)) a sel i j)

section exact
variable [ExactArith K]

/-- **C76 (partial).** The full property: the quiver plot has one arrow per cell of the plane, in row-major order; it starts at the position of the cell,
and without scaling it ends at that position plus the two components of the cell's vector that lie in the plane. Proved for every plane and every depth average except that along axis 1, where the abscissae are
those of another axis (`C76_false`). -/
theorem C76_arrows_partial (g : VecGrid K) (a : Fin 3) (sel : Sel) (h : g.Plottable a sel) (hax : a ≠ 1 ∨ ∃ k, sel = .plane k) :
    ∃ f, quiverPlot g a sel .asIs = .ok f ∧
      f.arrows.length = (g.comp 0).geom.cells (absc a) * (g.comp 0).geom.cells (ordi a) ∧
      ∀ i j, i < (g.comp 0).geom.cells (absc a) → j < (g.comp 0).geom.cells (ordi a) →
        ∃ t, f.arrows[i * (g.comp 0).geom.cells (ordi a) + j]? = some t ∧
          Draws t.points (placeOf (g.comp 0).geom a i j) (shown (g.comp (absc a)) a sel i j, shown (g.comp (ordi a)) a sel i j) := by
  obtain ⟨q, e, hx, hy, hs, hv⟩ := quiver_spec g h.regular a sel h.shows
  have hf := fits_of g h.regular a sel hax q hx hy hs
  obtain ⟨f, ef, hl, _, _, ha⟩ := figure_of g a sel .asIs q q e rfl hf h.some_u h.some_v
  refine ⟨f, ef, hl, fun i j hi hj => ?_⟩
  obtain ⟨t, h1, _, h2, _⟩ := ha i j hi hj
  refine ⟨t, h1, ?_⟩
  obtain ⟨hu, hv, _, _⟩ := hv i j hi hj
  rw [hx, hy, quiverAbsc_eq a sel hax, hu, hv] at h2
  exact h2

/-- The scalings by a factor that depends on the length. -/
theorem scaled_fig (g : VecGrid K) (a : Fin 3) (sel : Sel) (h : g.Plottable a sel) (hax : a ≠ 1 ∨ ∃ k, sel = .plane k) (mode : Scaling K) (c : F K → F K)
    (hmode : ∀ q : Vectors K, q.scale mode = q.scaleBy c) :
    ∃ f, quiverPlot g a sel mode = .ok f ∧
      f.arrows.length = (g.comp 0).geom.cells (absc a) * (g.comp 0).geom.cells (ordi a) ∧
      ∀ i j, i < (g.comp 0).geom.cells (absc a) → j < (g.comp 0).geom.cells (ordi a) →
        ∃ t, f.arrows[i * (g.comp 0).geom.cells (ordi a) + j]? = some t ∧
          Draws t.points (placeOf (g.comp 0).geom a i j)
            (shown (g.comp (absc a)) a sel i j * c (speedAt g a sel i j), shown (g.comp (ordi a)) a sel i j * c (speedAt g a sel i j)) := by
  obtain ⟨q, e, hx, hy, hs, hv⟩ := quiver_spec g h.regular a sel h.shows
  have hf := fits_of g h.regular a sel hax q hx hy hs
  obtain ⟨q', es, hf', h1, h2, _, h3, h4, _⟩ := scaleBy_ok q hf c
  obtain ⟨f, ef, hl, _, _, ha⟩ := figure_of g a sel mode q q' e (by rw [hmode, es]) hf' h.some_u h.some_v
  refine ⟨f, ef, hl, fun i j hi hj => ?_⟩
  obtain ⟨t, k1, _, k2, _⟩ := ha i j hi hj
  refine ⟨t, k1, ?_⟩
  obtain ⟨hu, hv, hn, _⟩ := hv i j hi hj
  rw [h1, h2, hx, hy, quiverAbsc_eq a sel hax, h3, h4, hu, hv, hn] at k2
  exact k2

/-- **C77, `max`.** Each arrow of a cell with a vector `(u, v)` is a positive multiple of `(u, v)` no longer than `M`: unchanged if it is short enough, otherwise of length `M`. -/
theorem C77_max (g : VecGrid K) (a : Fin 3) (sel : Sel) (h : g.Plottable a sel) (hax : a ≠ 1 ∨ ∃ k, sel = .plane k) (M : K) (hM : 0 < M) :
    ∃ f, quiverPlot g a sel (.max (fin M)) = .ok f ∧
      f.arrows.length = (g.comp 0).geom.cells (absc a) * (g.comp 0).geom.cells (ordi a) ∧
      ∀ i j, i < (g.comp 0).geom.cells (absc a) → j < (g.comp 0).geom.cells (ordi a) → ∀ u v,
        shown (g.comp (absc a)) a sel i j = fin u → shown (g.comp (ordi a)) a sel i j = fin v →
        ∃ t c, f.arrows[i * (g.comp 0).geom.cells (ordi a) + j]? = some t ∧ 0 < c ∧
          Draws t.points (placeOf (g.comp 0).geom a i j) (fin (c * u), fin (c * v)) ∧
          (u ^ 2 + v ^ 2 ≤ M ^ 2 → c = 1) ∧ (M ^ 2 < u ^ 2 + v ^ 2 → (c * u) ^ 2 + (c * v) ^ 2 = M ^ 2) := by
  obtain ⟨f, ef, hl, ha⟩ := scaled_fig g a sel h hax (.max (fin M)) (fun n => if n > fin M then fin M / n else 1) fun _ => rfl
  refine ⟨f, ef, hl, fun i j hi hj u v hu hv => ?_⟩
  obtain ⟨t, h1, h2⟩ := ha i j hi hj
  obtain ⟨s, es, hs0, hss⟩ := hypot_fin u v
  have esp : speedAt g a sel i j = fin s := by unfold speedAt; rw [hu, hv, es]
  rw [hu, hv, esp] at h2
  by_cases hlt : M < s
  · have hs : s ≠ 0 := by intro h0; rw [h0] at hlt; linarith
    have hc : (if (fin s : F K) > fin M then fin M / fin s else 1) = fin (M / s) := by
      rw [if_pos ((lt_fin _ _).2 hlt), ediv _ hs]
    rw [hc, emul, emul] at h2
    refine ⟨t, M / s, h1, div_pos hM (by linarith), by rw [mul_comm _ u, mul_comm _ v]; exact h2, ?_, ?_⟩
    · intro hle; exfalso; nlinarith
    · intro _
      have : (M / s * u) ^ 2 + (M / s * v) ^ 2 = M ^ 2 * ((u * u + v * v) / (s * s)) := by field_simp
      rw [this, ← hss, div_self (mul_ne_zero hs hs), mul_one]
  · have hc : (if (fin s : F K) > fin M then fin M / fin s else 1) = fin 1 := by
      rw [if_neg (by intro hh; exact hlt ((lt_fin _ _).1 hh))]; rfl
    rw [hc, emul, emul] at h2
    refine ⟨t, 1, h1, one_pos, by rw [mul_comm _ u, mul_comm _ v]; exact h2, fun _ => rfl, ?_⟩
    intro hh; exfalso; push Not at hlt; nlinarith

/-- **C77, `min` (partial).** Each arrow of a cell with a vector `(u, v)` other than zero is a positive multiple of it no shorter than `m`: unchanged if it is long enough, otherwise of
length `m`. Zero vectors have no direction and are not drawn (`C77_zero`). -/
theorem C77_min_partial (g : VecGrid K) (a : Fin 3) (sel : Sel) (h : g.Plottable a sel) (hax : a ≠ 1 ∨ ∃ k, sel = .plane k) (m : K) (hm : 0 < m) :
    ∃ f, quiverPlot g a sel (.min (fin m)) = .ok f ∧
      f.arrows.length = (g.comp 0).geom.cells (absc a) * (g.comp 0).geom.cells (ordi a) ∧
      ∀ i j, i < (g.comp 0).geom.cells (absc a) → j < (g.comp 0).geom.cells (ordi a) → ∀ u v,
        shown (g.comp (absc a)) a sel i j = fin u → shown (g.comp (ordi a)) a sel i j = fin v → ¬ (u = 0 ∧ v = 0) →
        ∃ t c, f.arrows[i * (g.comp 0).geom.cells (ordi a) + j]? = some t ∧ 0 < c ∧
          Draws t.points (placeOf (g.comp 0).geom a i j) (fin (c * u), fin (c * v)) ∧
          (m ^ 2 ≤ u ^ 2 + v ^ 2 → c = 1) ∧ (u ^ 2 + v ^ 2 < m ^ 2 → (c * u) ^ 2 + (c * v) ^ 2 = m ^ 2) := by
  obtain ⟨f, ef, hl, ha⟩ := scaled_fig g a sel h hax (.min (fin m)) (fun n => if n < fin m then fin m / n else 1) fun _ => rfl
  refine ⟨f, ef, hl, fun i j hi hj u v hu hv hne => ?_⟩
  obtain ⟨t, h1, h2⟩ := ha i j hi hj
  obtain ⟨s, es, hs0, hss⟩ := hypot_fin u v
  have esp : speedAt g a sel i j = fin s := by unfold speedAt; rw [hu, hv, es]
  rw [hu, hv, esp] at h2
  have hs : 0 < s := by
    refine lt_of_le_of_ne hs0 fun h0 => hne ?_
    rw [← h0] at hss
    constructor <;> nlinarith [mul_self_nonneg u, mul_self_nonneg v]
  by_cases hlt : s < m
  · have hc : (if (fin s : F K) < fin m then fin m / fin s else 1) = fin (m / s) := by
      rw [if_pos ((lt_fin _ _).2 hlt), ediv _ hs.ne']
    rw [hc, emul, emul] at h2
    refine ⟨t, m / s, h1, div_pos hm hs, by rw [mul_comm _ u, mul_comm _ v]; exact h2, ?_, ?_⟩
    · intro hle; exfalso; nlinarith
    · intro _
      have : (m / s * u) ^ 2 + (m / s * v) ^ 2 = m ^ 2 * ((u * u + v * v) / (s * s)) := by field_simp
      rw [this, ← hss, div_self (mul_ne_zero hs.ne' hs.ne'), mul_one]
  · have hc : (if (fin s : F K) < fin m then fin m / fin s else 1) = fin 1 := by
      rw [if_neg (by intro hh; exact hlt ((lt_fin _ _).1 hh))]; rfl
    rw [hc, emul, emul] at h2
    refine ⟨t, 1, h1, one_pos, by rw [mul_comm _ u, mul_comm _ v]; exact h2, fun _ => rfl, ?_⟩
    intro hh; exfalso; push Not at hlt; nlinarith

/-- **C77, `minmax` (partial).** With `0 < lo ≤ hi` each arrow of a non-zero vector is a positive multiple of it with a length between `lo` and `hi`, unchanged if it is there already. -/
theorem C77_minmax_partial (g : VecGrid K) (a : Fin 3) (sel : Sel) (h : g.Plottable a sel) (hax : a ≠ 1 ∨ ∃ k, sel = .plane k) (lo hi : K) (hlo : 0 < lo) (hlh : lo ≤ hi) :
    ∃ f, quiverPlot g a sel (.minMax (fin lo) (fin hi)) = .ok f ∧
      f.arrows.length = (g.comp 0).geom.cells (absc a) * (g.comp 0).geom.cells (ordi a) ∧
      ∀ i j, i < (g.comp 0).geom.cells (absc a) → j < (g.comp 0).geom.cells (ordi a) → ∀ u v,
        shown (g.comp (absc a)) a sel i j = fin u → shown (g.comp (ordi a)) a sel i j = fin v → ¬ (u = 0 ∧ v = 0) →
        ∃ t c, f.arrows[i * (g.comp 0).geom.cells (ordi a) + j]? = some t ∧ 0 < c ∧
          Draws t.points (placeOf (g.comp 0).geom a i j) (fin (c * u), fin (c * v)) ∧
          (lo ^ 2 ≤ u ^ 2 + v ^ 2 → u ^ 2 + v ^ 2 ≤ hi ^ 2 → c = 1) ∧ (u ^ 2 + v ^ 2 < lo ^ 2 → (c * u) ^ 2 + (c * v) ^ 2 = lo ^ 2) ∧
          (hi ^ 2 < u ^ 2 + v ^ 2 → (c * u) ^ 2 + (c * v) ^ 2 = hi ^ 2) := by
  obtain ⟨f, ef, hl, ha⟩ := scaled_fig g a sel h hax (.minMax (fin lo) (fin hi)) (fun n => if n > fin hi then fin hi / n else if n < fin lo then fin lo / n else 1) fun _ => rfl
  refine ⟨f, ef, hl, fun i j hi' hj u v hu hv hne => ?_⟩
  obtain ⟨t, h1, h2⟩ := ha i j hi' hj
  obtain ⟨s, es, hs0, hss⟩ := hypot_fin u v
  have esp : speedAt g a sel i j = fin s := by unfold speedAt; rw [hu, hv, es]
  rw [hu, hv, esp] at h2
  have hs : 0 < s := by
    refine lt_of_le_of_ne hs0 fun h0 => hne ?_
    rw [← h0] at hss
    constructor <;> nlinarith [mul_self_nonneg u, mul_self_nonneg v]
  have len : ∀ L : K, (L / s * u) ^ 2 + (L / s * v) ^ 2 = L ^ 2 := by
    intro L
    have : (L / s * u) ^ 2 + (L / s * v) ^ 2 = L ^ 2 * ((u * u + v * v) / (s * s)) := by field_simp
    rw [this, ← hss, div_self (mul_ne_zero hs.ne' hs.ne'), mul_one]
  by_cases hgt : hi < s
  · have hc : (if (fin s : F K) > fin hi then fin hi / fin s else if (fin s : F K) < fin lo then fin lo / fin s else 1) = fin (hi / s) := by
      rw [if_pos ((lt_fin _ _).2 hgt), ediv _ hs.ne']
    rw [hc, emul, emul] at h2
    refine ⟨t, hi / s, h1, div_pos (by linarith) hs, by rw [mul_comm _ u, mul_comm _ v]; exact h2, ?_, ?_, fun _ => len hi⟩
    · intro _ hle; exfalso; nlinarith
    · intro hh; exfalso; nlinarith
  · have hn : ¬ (fin s : F K) > fin hi := fun hh => hgt ((lt_fin _ _).1 hh)
    push Not at hgt
    by_cases hlt : s < lo
    · have hc : (if (fin s : F K) > fin hi then fin hi / fin s else if (fin s : F K) < fin lo then fin lo / fin s else 1) = fin (lo / s) := by
        rw [if_neg hn, if_pos ((lt_fin _ _).2 hlt), ediv _ hs.ne']
      rw [hc, emul, emul] at h2
      refine ⟨t, lo / s, h1, div_pos hlo hs, by rw [mul_comm _ u, mul_comm _ v]; exact h2, ?_, fun _ => len lo, ?_⟩
      · intro hle _; exfalso; nlinarith
      · intro hh; exfalso; nlinarith
    · have hc : (if (fin s : F K) > fin hi then fin hi / fin s else if (fin s : F K) < fin lo then fin lo / fin s else 1) = fin 1 := by
        rw [if_neg hn, if_neg (by intro hh; exact hlt ((lt_fin _ _).1 hh))]; rfl
      rw [hc, emul, emul] at h2
      push Not at hlt
      refine ⟨t, 1, h1, one_pos, by rw [mul_comm _ u, mul_comm _ v]; exact h2, fun _ _ => rfl, ?_, ?_⟩
      · intro hh; exfalso; nlinarith
      · intro hh; exfalso; nlinarith

/-- **C77 fails for zero vectors**: in mode `min` (and likewise `minmax`) the arrow of a cell whose vector is zero ends at NaN: it is not "no shorter than `m`" but absent. -/
theorem C77_zero (g : VecGrid K) (a : Fin 3) (sel : Sel) (h : g.Plottable a sel) (hax : a ≠ 1 ∨ ∃ k, sel = .plane k) (m : K) (hm : 0 < m) :
    ∃ f, quiverPlot g a sel (.min (fin m)) = .ok f ∧
      ∀ i j, i < (g.comp 0).geom.cells (absc a) → j < (g.comp 0).geom.cells (ordi a) →
        shown (g.comp (absc a)) a sel i j = fin 0 → shown (g.comp (ordi a)) a sel i j = fin 0 →
        ∃ t, f.arrows[i * (g.comp 0).geom.cells (ordi a) + j]? = some t ∧ t.points[1]? = some (nan, nan) := by
  obtain ⟨f, ef, _, ha⟩ := scaled_fig g a sel h hax (.min (fin m)) (fun n => if n < fin m then fin m / n else 1) fun _ => rfl
  refine ⟨f, ef, fun i j hi hj hu hv => ?_⟩
  obtain ⟨t, h1, h2⟩ := ha i j hi hj
  obtain ⟨s, es, hs0, hss⟩ := hypot_fin (0 : K) 0
  have : s = 0 := by nlinarith
  subst this
  have esp : speedAt g a sel i j = fin 0 := by unfold speedAt; rw [hu, hv, es]
  rw [hu, hv, esp, if_pos ((lt_fin _ _).2 hm), div_fin, if_pos rfl] at h2
  have hz : (fin 0 * infTimes m : F K) = nan := by
    unfold infTimes; rw [if_pos hm]
    change infTimes (0 : K) = nan
    unfold infTimes; rw [if_neg (lt_irrefl _), if_neg (lt_irrefl _)]
  rw [hz] at h2
  refine ⟨t, h1, ?_⟩
  rw [h2.2]
  have : ∀ x : F K, x + nan = nan := by intro x; cases x <;> rfl
  simp only [this]

end exact

end Up4
