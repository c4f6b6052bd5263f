import Verif.Props.QuiverColour

set_option linter.unusedSectionVars false

/-! # C81: unit vector plots -/

namespace Up4
open F
open Selector (at')

variable {K : Type} [Field K] [LinearOrder K] [IsStrictOrderedRing K] [FloorRing K] [Arith K]

/-- A heat map shows the value `z` at the place `p`, in its entry `k`. -/
def Heat.Shows (h : Heat K) (k : ℕ) (p : F K × F K) (z : F K) : Prop :=
  h.x[k]? = some p.1 ∧ h.y[k]? = some p.2 ∧ h.z[k]? = some z

theorem heat_spec (x y : List (F K)) (z : Arr 2 (F K)) {n m : ℕ} (hx : x.length = n) (hy : y.length = m) (hz : z.shape = ![n, m]) :
    ∃ h, heat x y z = .ok h ∧ h.x.length = n * m ∧ h.y.length = n * m ∧ h.z.length = n * m ∧
      ∀ i j, i < n → j < m → h.Shows (i * m + j) (x.getD i nan, y.getD j nan) (z.get ![i, j]) := by
  obtain ⟨xx, yy, e, sx, sy, hxy⟩ := C55_meshgrid x y
  rw [hx, hy] at sx sy
  unfold heat
  rw [e, run_bind_ok]
  refine ⟨_, rfl, (C55_flatten2 xx n m sx).1, (C55_flatten2 yy n m sy).1, (C55_flatten2 z n m hz).1, fun i j hi hj => ?_⟩
  obtain ⟨h1, h2⟩ := hxy i j (by omega) (by omega)
  refine ⟨?_, ?_, (C55_flatten2 z n m hz).2 i j hi hj⟩
  · change (flatten xx)[i * m + j]? = some (x.getD i nan)
    rw [(C55_flatten2 xx n m sx).2 i j hi hj, h1, getD_lt _ (by omega)]
  · change (flatten yy)[i * m + j]? = some (y.getD j nan)
    rw [(C55_flatten2 yy n m sy).2 i j hi hj, h2, getD_lt _ (by omega)]

section exact
variable [ExactArith K]

theorem max_const_one (n m : ℕ) (hn : 0 < n) (hm : 0 < m) : maxSkipNaN (flatten (Arr.const ![n, m] (1 : F K))) = fin 1 := by
  have all : ∀ x ∈ flatten (Arr.const ![n, m] (1 : F K)), x = fin 1 := by
    intro x hx
    obtain ⟨_, _, _, _, e⟩ := (mem_flatten2 _ (n := n) (m := m) rfl _).1 hx
    rw [← e]; rfl
  exact all _ (skipNaN_max _ ⟨_, (mem_flatten2 _ (n := n) (m := m) rfl _).2 ⟨0, 0, hn, hm, rfl⟩, by change (fin 1 : F K) ≠ nan; intro hh; cases hh⟩).1

/-- The vectors of the unit vector plot. -/
theorem unit_spec (g : VecGrid K) (a : Fin 3) (sel : Sel) (h : g.Plottable a sel) (dx dy : K) (hsp : Spaced (g.comp 0).geom a dx dy) :
    ∃ q, Vectors.unit g a sel = .ok q ∧ q.Fits ((g.comp 0).geom.cells (absc a)) ((g.comp 0).geom.cells (ordi a)) ∧
      q.x = (g.comp 0).geom.positions (absc a) ∧ q.y = (g.comp 0).geom.positions (ordi a) ∧
      ∀ i j, i < (g.comp 0).geom.cells (absc a) → j < (g.comp 0).geom.cells (ordi a) →
        q.u.get ![i, j] = shown (g.comp (absc a)) a sel i j / speedAt g a sel i j * fin (dx / 2) ∧
        q.v.get ![i, j] = shown (g.comp (ordi a)) a sel i j / speedAt g a sel i j * fin (dy / 2) ∧
        q.trueNorm.get ![i, j] = speedAt g a sel i j ∧
        q.norm.get ![i, j] = F.hypot (q.u.get ![i, j]) (q.v.get ![i, j]) := by
  have hg := h.regular
  obtain ⟨u, eu, su, vu⟩ := planeOf_spec (g.comp (absc a)) (hg.regular _).shaped a sel (h.shows _)
  obtain ⟨v, ev, sv, vv⟩ := planeOf_spec (g.comp (ordi a)) (hg.regular _).shaped a sel (h.shows _)
  rw [hg.same] at su sv vu vv
  set n := (g.comp 0).geom.cells (absc a) with hn
  set m := (g.comp 0).geom.cells (ordi a) with hm
  have ez : zipSame F.hypot u v = .ok ⟨![n, m], fun i => F.hypot (u.get i) (v.get i)⟩ := by
    unfold zipSame; rw [if_pos (by rw [su, sv]), su]
  obtain ⟨u', eu', su', vu'⟩ := Arr.zipWith_same (· / ·) u ⟨![n, m], fun i => F.hypot (u.get i) (v.get i)⟩ su
  obtain ⟨v', ev', sv', vv'⟩ := Arr.zipWith_same (· / ·) v ⟨![n, m], fun i => F.hypot (u.get i) (v.get i)⟩ sv
  have lx : ((g.comp 0).geom.positions (absc a)).length = n := (hg.regular 0).sized _
  have ly : ((g.comp 0).geom.positions (ordi a)).length = m := (hg.regular 0).sized _
  have e1 : Vectors.spacing ((g.comp 0).geom.positions (absc a)) = .ok (fin dx) := by
    rw [spacing_ok _ (by rw [lx]; exact hsp.two_u)]; exact congrArg _ hsp.hx
  have e2 : Vectors.spacing ((g.comp 0).geom.positions (ordi a)) = .ok (fin dy) := by
    rw [spacing_ok _ (by rw [ly]; exact hsp.two_v)]; exact congrArg _ hsp.hy
  obtain ⟨q, eq, hf, k1, k2, k3, k4, k5, k6⟩ := boundNode_ok ⟨(g.comp 0).geom.positions (absc a), (g.comp 0).geom.positions (ordi a), u', v', Arr.const u'.shape 1, ⟨![n, m], fun i => F.hypot (u.get i) (v.get i)⟩⟩
    (n := n) (m := m) ⟨lx, ly, by rw [← su]; exact su', by rw [← sv]; exact sv', by change u'.shape = _; rw [su', su], rfl⟩ (fin (dx / 2)) (fin (dy / 2))
  have emax : maxSkipNaN (flatten (Arr.const u'.shape (1 : F K))) = fin 1 := by
    rw [su', su]; exact max_const_one n m h.some_u h.some_v
  refine ⟨q, ?_, hf, k1, k2, fun i j hi hj => ?_⟩
  · unfold Vectors.unit
    rw [compU_eq, compV_eq, eu, run_bind_ok, ev, run_bind_ok, ez, run_bind_ok, eu', run_bind_ok, ev', run_bind_ok]
    dsimp only
    rw [e1, run_bind_ok, e2, run_bind_ok, elit, emul, emul, show 1 / 2 * dx = dx / 2 by ring, show 1 / 2 * dy = dy / 2 by ring]
    exact eq
  · have hb : InB u.shape ![i, j] := by rw [su]; exact inB2 hi hj
    have hb' : InB v.shape ![i, j] := by rw [sv]; exact inB2 hi hj
    refine ⟨?_, ?_, ?_, k6 _⟩
    · rw [k4]; dsimp only; rw [emax, ediv _ one_ne_zero, div_one, vu' _ hb]; dsimp only; rw [vu i j hi hj, vv i j hi hj]; rfl
    · rw [k5]; dsimp only; rw [emax, ediv _ one_ne_zero, div_one, vv' _ hb']; dsimp only; rw [vu i j hi hj, vv i j hi hj]; rfl
    · rw [k3]; dsimp only; rw [vu i j hi hj, vv i j hi hj]; rfl

/-- **C81 (partial).** The unit vector plot has one arrow per cell of the plane and a background. The arrow of a cell with a non-zero vector of length `s` is `(u/s · dx/2, v/s · dy/2)`: when the cells are square all arrows have
the same length, half a cell, and the directions of their vectors; otherwise neither (`C81_false`). Behind cell `(i, j)` the background shows the true speed at the place where the arrow starts. -/
theorem C81_unit_partial (g : VecGrid K) (a : Fin 3) (sel : Sel) (h : g.Plottable a sel) (dx dy : K) (hsp : Spaced (g.comp 0).geom a dx dy) :
    ∃ f, unitPlot g a sel .asIs = .ok f ∧ f.arrows.length = (g.comp 0).geom.cells (absc a) * (g.comp 0).geom.cells (ordi a) ∧
      f.background.z.length = (g.comp 0).geom.cells (absc a) * (g.comp 0).geom.cells (ordi a) ∧
      ∀ i j, i < (g.comp 0).geom.cells (absc a) → j < (g.comp 0).geom.cells (ordi a) →
        f.background.Shows (i * (g.comp 0).geom.cells (ordi a) + j) (placeOf (g.comp 0).geom a i j) (speedAt g a sel i j) ∧
        ∃ t, f.arrows[i * (g.comp 0).geom.cells (ordi a) + j]? = some t ∧ ∀ u v,
          shown (g.comp (absc a)) a sel i j = fin u → shown (g.comp (ordi a)) a sel i j = fin v →
          (¬ (u = 0 ∧ v = 0) → ∃ s, 0 < s ∧ s ^ 2 = u ^ 2 + v ^ 2 ∧
            Draws t (placeOf (g.comp 0).geom a i j) (fin (u / s * (dx / 2)), fin (v / s * (dy / 2))) ∧
            (dx = dy → (u / s * (dx / 2)) ^ 2 + (v / s * (dy / 2)) ^ 2 = (dx / 2) ^ 2)) ∧
          (u = 0 ∧ v = 0 → t[1]? = some (nan, nan)) := by
  obtain ⟨q, e, hf, hx, hy, hv⟩ := unit_spec g a sel h dx dy hsp
  obtain ⟨l, el, ll, hl⟩ := createArrows_spec q hf
  obtain ⟨b, eb, _, _, lb, hb⟩ := heat_spec q.x q.y q.trueNorm hf.hx hf.hy hf.ht
  refine ⟨⟨l.map Arrow.points, b⟩, ?_, by rw [List.length_map, ll], lb, fun i j hi hj => ?_⟩
  · unfold unitPlot
    rw [e, run_bind_ok]
    change (q.createArrows >>= _) = _
    rw [el, run_bind_ok, eb, run_bind_ok]
    rfl
  obtain ⟨hu, hv', ht, _⟩ := hv i j hi hj
  refine ⟨?_, _, by rw [List.getElem?_map, hl i j hi hj]; rfl, fun u v eu ev => ⟨fun hne => ?_, fun hz => ?_⟩⟩
  · have := hb i j hi hj
    rw [ht, hx, hy] at this
    exact this
  · obtain ⟨s, es, hs0, hss⟩ := hypot_fin u v
    have hs : 0 < s := by
      refine lt_of_le_of_ne hs0 fun h0 => hne ?_
      rw [← h0] at hss
      constructor <;> nlinarith [mul_self_nonneg u, mul_self_nonneg v]
    have esp : speedAt g a sel i j = fin s := by unfold speedAt; rw [eu, ev, es]
    rw [eu, esp, ediv _ hs.ne', emul] at hu
    rw [ev, esp, ediv _ hs.ne', emul] at hv'
    refine ⟨s, hs, by rw [pow_two, hss]; ring, ⟨by rw [hx, hy]; rfl, ?_⟩, fun hd => ?_⟩
    · unfold arrowOf Arrow.points
      dsimp only
      rw [mul_one_exact, hu, hv', hx, hy]
      rfl
    · rw [← hd]
      calc (u / s * (dx / 2)) ^ 2 + (v / s * (dx / 2)) ^ 2 = (dx / 2) ^ 2 * ((u * u + v * v) / (s * s)) := by field_simp
        _ = _ := by rw [← hss, div_self (mul_ne_zero hs.ne' hs.ne'), mul_one]
  · obtain ⟨rfl, rfl⟩ := hz
    obtain ⟨s, es, hs0, hss⟩ := hypot_fin (0 : K) 0
    have h0 : s = 0 := by nlinarith
    subst h0
    have esp : speedAt g a sel i j = fin 0 := by unfold speedAt; rw [eu, ev, es]
    have hz : (fin 0 / fin 0 : F K) = nan := by
      rw [div_fin, if_pos rfl]; unfold infTimes; rw [if_neg (lt_irrefl _), if_neg (lt_irrefl _)]
    have nm : ∀ x : F K, nan * x = nan := by intro x; cases x <;> rfl
    have na : ∀ x : F K, x + nan = nan := by intro x; cases x <;> rfl
    rw [eu, esp, hz, nm] at hu
    rw [ev, esp, hz, nm] at hv'
    unfold arrowOf Arrow.points
    dsimp only
    rw [mul_one_exact, hu, hv', na, na]
    rfl

end exact

/-- **C81 is false when the cells are not square**: over `[0,4]×[0,2]×[0,2]` with 2×2×2 cells, the arrow of a vector `(3, 4)` is `(3/5, 2/5)`: it is not parallel to the vector. -/
theorem C81_false : ∃ (g : VecGrid ℝ) (f : UnitFig ℝ) (t : List (F ℝ × F ℝ)), g.Plottable 2 (.plane 0) ∧
    unitPlot g (2 : Fin 3) (.plane 0) .asIs = .ok f ∧ f.arrows[0]? = some t ∧
    shown (g.comp 0) 2 (.plane 0) 0 0 = fin 3 ∧ shown (g.comp 1) 2 (.plane 0) 0 0 = fin 4 ∧
    Draws t (placeOf (g.comp 0).geom 2 0 0) (fin (3 / 5), fin (2 / 5)) := by
  have hp : (fieldGrid (fun _ => 2) ![(4 : ℝ), 2, 2] (fun k _ => fin (![3, 4, 0] k))).Plottable 2 (.plane 0) :=
    fieldGrid_plottable _ (by intro a; norm_num) _ _ (fun _ _ => Or.inr ⟨_, rfl⟩) 2 _ (fun k hk => by cases hk; decide)
  obtain ⟨f, e, _, _, h⟩ := C81_unit_partial _ 2 (.plane 0) hp _ _
    (fieldGrid_spaced _ _ _ 2 (by norm_num) (by norm_num) (by intro e; fin_cases e <;> norm_num))
  obtain ⟨_, t, h1, h2⟩ := h 0 0 (by change 0 < 2; norm_num) (by change 0 < 2; norm_num)
  obtain ⟨s, hs, hss, hdr, _⟩ := (h2 3 4 rfl rfl).1 (by norm_num)
  have hs5 : s = 5 := by nlinarith
  refine ⟨_, f, t, hp, e, by simpa using h1, rfl, rfl, ?_⟩
  rw [hs5] at hdr
  have e1 : (3 / 5 * (![(4 : ℝ), 2, 2] (absc ((2 : Fin 3) : ℕ)) / ((2 : ℕ) : ℝ) / 2)) = 3 / 5 := by
    rw [show ![(4 : ℝ), 2, 2] (absc ((2 : Fin 3) : ℕ)) = 4 from rfl]; norm_num
  have e2 : (4 / 5 * (![(4 : ℝ), 2, 2] (ordi ((2 : Fin 3) : ℕ)) / ((2 : ℕ) : ℝ) / 2)) = 2 / 5 := by
    rw [show ![(4 : ℝ), 2, 2] (ordi ((2 : Fin 3) : ℕ)) = 2 from rfl]; norm_num
  rw [e1, e2] at hdr
  exact hdr

end Up4
