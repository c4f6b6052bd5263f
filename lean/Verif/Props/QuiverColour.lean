import Verif.Props.QuiverNode
import Verif.RealArith

set_option linter.unusedSectionVars false

/-! # C79 and C80: colours and heads of the arrows of a quiver plot -/

namespace Up4
open F
open Selector (at')

variable {K : Type} [Field K] [LinearOrder K] [IsStrictOrderedRing K] [FloorRing K] [Arith K]

section exact
variable [ExactArith K]

/-- No scaling changes the positions or the norms the colours are made from. -/
theorem scale_keeps (q : Vectors K) {n m : ℕ} (hf : q.Fits n m) (hn : ∀ i j, i < n → j < m → q.norm.get ![i, j] = F.hypot (q.u.get ![i, j]) (q.v.get ![i, j]))
    (mode : Scaling K) (q' : Vectors K) (h : q.scale mode = .ok q') :
    q'.Fits n m ∧ q'.x = q.x ∧ q'.y = q.y ∧ q'.trueNorm = q.trueNorm ∧
      ∀ i j, i < n → j < m → q'.norm.get ![i, j] = F.hypot (q'.u.get ![i, j]) (q'.v.get ![i, j]) := by
  have by' : ∀ f : F K → F K, q.scaleBy f = .ok q' → q'.Fits n m ∧ q'.x = q.x ∧ q'.y = q.y ∧ q'.trueNorm = q.trueNorm ∧
      ∀ i j, i < n → j < m → q'.norm.get ![i, j] = F.hypot (q'.u.get ![i, j]) (q'.v.get ![i, j]) := by
    intro f hq
    obtain ⟨r, er, h1, h2, h3, h4, _, _, h5⟩ := scaleBy_ok q hf f
    rw [hq] at er; cases er
    exact ⟨h1, h2, h3, h4, fun i j _ _ => h5 _⟩
  have node : ∀ c d : F K, q.boundNode c d = .ok q' → q'.Fits n m ∧ q'.x = q.x ∧ q'.y = q.y ∧ q'.trueNorm = q.trueNorm ∧
      ∀ i j, i < n → j < m → q'.norm.get ![i, j] = F.hypot (q'.u.get ![i, j]) (q'.v.get ![i, j]) := by
    intro c d hq
    obtain ⟨r, er, h1, h2, h3, h4, _, _, h5⟩ := boundNode_ok q hf c d
    rw [hq] at er; cases er
    exact ⟨h1, h2, h3, h4, fun i j _ _ => h5 _⟩
  have gen : ∀ k : F K → F K → Run (Vectors K), (Vectors.spacing q.x >>= fun dx => Vectors.spacing q.y >>= fun dy => k dx dy) = .ok q' → ∃ c d, k c d = .ok q' := by
    intro k hk
    cases e1 : Vectors.spacing q.x with
    | error _ => rw [e1] at hk; cases hk
    | ok c =>
      rw [e1, run_bind_ok] at hk
      cases e2 : Vectors.spacing q.y with
      | error _ => rw [e2] at hk; cases hk
      | ok d => rw [e2, run_bind_ok] at hk; exact ⟨c, d, hk⟩
  cases mode with
  | asIs => cases h; exact ⟨hf, rfl, rfl, rfl, hn⟩
  | min m => exact by' (fun n => if n < m then m / n else 1) h
  | max m => exact by' (fun n => if n > m then m / n else 1) h
  | minMax lo hi => exact by' (fun n => if n > hi then hi / n else if n < lo then lo / n else 1) h
  | halfNode => obtain ⟨c, d, hk⟩ := gen (fun dx dy => q.boundNode (F.lit (1 / 2) * dx) (F.lit (1 / 2) * dy)) h; exact node _ _ hk
  | fullNode => obtain ⟨c, d, hk⟩ := gen (fun dx dy => q.boundNode dx dy) h; exact node _ _ hk

/-- The figure of a plot that was made. -/
theorem figure_made (g : VecGrid K) (a : Fin 3) (sel : Sel) (h : g.Plottable a sel) (hax : a ≠ 1 ∨ ∃ k, sel = .plane k) (mode : Scaling K) (f : QuiverFig K)
    (hf : quiverPlot g a sel mode = .ok f) :
    ∃ q : Vectors K, q.Fits ((g.comp 0).geom.cells (absc a)) ((g.comp 0).geom.cells (ordi a)) ∧
      q.x = (g.comp 0).geom.positions (absc a) ∧ q.y = (g.comp 0).geom.positions (ordi a) ∧
      (∀ i j, i < (g.comp 0).geom.cells (absc a) → j < (g.comp 0).geom.cells (ordi a) → q.norm.get ![i, j] = F.hypot (q.u.get ![i, j]) (q.v.get ![i, j])) ∧
      (∀ i j, i < (g.comp 0).geom.cells (absc a) → j < (g.comp 0).geom.cells (ordi a) → q.trueNorm.get ![i, j] = speedAt g a sel i j) ∧
      f.cmin = minSkipNaN (flatten q.trueNorm) ∧ f.cmax = maxSkipNaN (flatten q.trueNorm) ∧
      f.arrows.length = (g.comp 0).geom.cells (absc a) * (g.comp 0).geom.cells (ordi a) ∧
      ∀ i j, i < (g.comp 0).geom.cells (absc a) → j < (g.comp 0).geom.cells (ordi a) →
        ∃ t, f.arrows[i * (g.comp 0).geom.cells (ordi a) + j]? = some t ∧
        t.points = (arrowOf (q.x.getD i nan, q.y.getD j nan) (q.u.get ![i, j]) (q.v.get ![i, j]) (q.norm.get ![i, j])).points ∧
        Draws t.points (q.x.getD i nan, q.y.getD j nan) (q.u.get ![i, j], q.v.get ![i, j]) ∧
        t.colour = (q.trueNorm.get ![i, j] - f.cmin) / (f.cmax - f.cmin) := by
  obtain ⟨q, e, hx, hy, hs, hv⟩ := quiver_spec g h.regular a sel h.shows
  have hfit := fits_of g h.regular a sel hax q hx hy hs
  cases es : q.scale mode with
  | error x =>
    unfold quiverPlot at hf
    rw [e, run_bind_ok, es] at hf; cases hf
  | ok q' =>
    obtain ⟨h1, h2, h3, h4, h5⟩ := scale_keeps q hfit (fun i j hi hj => by obtain ⟨k1, k2, k3, _⟩ := hv i j hi hj; rw [k3, k1, k2]) mode q' es
    obtain ⟨f', ef, hl, k1, k2, k3⟩ := figure_of g a sel mode q q' e es h1 h.some_u h.some_v
    rw [hf] at ef; cases ef
    exact ⟨q', h1, by rw [h2, hx, quiverAbsc_eq a sel hax], by rw [h3, hy], h5, fun i j hi hj => by rw [h4]; exact (hv i j hi hj).2.2.2, k1, k2, hl, k3⟩

/-- **C79 (partial): colours.** Whatever the scaling, the colour bar runs from the least to the greatest speed in the plane, and the arrow of a cell has the colour at the place of the cell's true speed between the two: 0 for the
slowest, 1 for the fastest, in between for the others. Proved for planes in which not all speeds are equal (`C79_uniform` for the others). -/
theorem C79_colours_partial (g : VecGrid K) (a : Fin 3) (sel : Sel) (h : g.Plottable a sel) (hax : a ≠ 1 ∨ ∃ k, sel = .plane k) (hd : ∀ k, FinOrNaN (g.comp k).st.data)
    (lo hi : K) (hlo : Least g a sel lo) (hhi : Greatest g a sel hi) (hlt : lo < hi) (mode : Scaling K) (f : QuiverFig K) (hf : quiverPlot g a sel mode = .ok f) :
    f.cmin = fin lo ∧ f.cmax = fin hi ∧
      ∀ i j, i < (g.comp 0).geom.cells (absc a) → j < (g.comp 0).geom.cells (ordi a) → ∀ s, speedAt g a sel i j = fin s →
        ∃ t, f.arrows[i * (g.comp 0).geom.cells (ordi a) + j]? = some t ∧ t.colour = fin ((s - lo) / (hi - lo)) ∧
          0 ≤ (s - lo) / (hi - lo) ∧ (s - lo) / (hi - lo) ≤ 1 := by
  obtain ⟨q, hfit, _, _, _, ht, hmin, hmax, _, hv⟩ := figure_made g a sel h hax mode f hf
  obtain ⟨i0, j0, hi0, hj0, es0⟩ := hlo.1
  have hne : ∃ i j, i < (g.comp 0).geom.cells (absc a) ∧ j < (g.comp 0).geom.cells (ordi a) ∧ speedAt g a sel i j ≠ nan :=
    ⟨i0, j0, hi0, hj0, by rw [es0]; intro hh; cases hh⟩
  obtain ⟨A, eA, hA⟩ := speeds_min g a sel h hd q.trueNorm hfit.ht ht hne
  obtain ⟨B, eB, hB⟩ := speeds_max g a sel h hd q.trueNorm hfit.ht ht hne
  have hAlo : A = lo := by
    obtain ⟨i, j, hi, hj, es⟩ := hA.1
    exact le_antisymm (hA.2 i0 j0 lo hi0 hj0 es0) (hlo.2 i j A hi hj es)
  have hBhi : B = hi := by
    obtain ⟨i, j, hi, hj, es⟩ := hB.1
    obtain ⟨i1, j1, hi1, hj1, es1⟩ := hhi.1
    exact le_antisymm (hhi.2 i j B hi hj es) (hB.2 i1 j1 _ hi1 hj1 es1)
  subst hAlo hBhi
  rw [eA] at hmin
  rw [eB] at hmax
  refine ⟨hmin, hmax, fun i j hi hj s hs => ?_⟩
  obtain ⟨t, h1, _, _, hc⟩ := hv i j hi hj
  have hd0 : B - A ≠ 0 := by linarith
  rw [ht i j hi hj, hs, hmin, hmax, esub, esub, ediv _ hd0] at hc
  have l1 := hlo.2 i j s hi hj hs
  have l2 := hhi.2 i j s hi hj hs
  exact ⟨t, h1, hc, div_nonneg (by linarith) (by linarith), by rw [div_le_one (by linarith)]; linarith⟩

/-- **C79 fails for uniform speed**: when all speeds in the plane are equal every colour is NaN (0/0). -/
theorem C79_uniform (g : VecGrid K) (a : Fin 3) (sel : Sel) (h : g.Plottable a sel) (hax : a ≠ 1 ∨ ∃ k, sel = .plane k)
    (s : K) (hs : ∀ i j, i < (g.comp 0).geom.cells (absc a) → j < (g.comp 0).geom.cells (ordi a) → speedAt g a sel i j = fin s)
    (mode : Scaling K) (f : QuiverFig K) (hf : quiverPlot g a sel mode = .ok f) : ∀ t ∈ f.arrows, t.colour = nan := by
  obtain ⟨q, hfit, _, _, _, ht, hmin, hmax, hl, hv⟩ := figure_made g a sel h hax mode f hf
  have all : ∀ x ∈ flatten q.trueNorm, x = fin s := by
    intro x hx
    obtain ⟨i, j, hi, hj, e⟩ := (mem_flatten2 _ hfit.ht _).1 hx
    rw [← e, ht i j hi hj, hs i j hi hj]
  have ex : ∃ x ∈ flatten q.trueNorm, x ≠ nan :=
    ⟨_, (mem_flatten2 _ hfit.ht _).2 ⟨0, 0, h.some_u, h.some_v, rfl⟩, by rw [ht 0 0 h.some_u h.some_v, hs 0 0 h.some_u h.some_v]; intro hh; cases hh⟩
  rw [all _ (skipNaN_min _ ex).1] at hmin
  rw [all _ (skipNaN_max _ ex).1] at hmax
  intro t ht'
  obtain ⟨k, hk, ek⟩ := List.getElem_of_mem ht'
  rw [hl] at hk
  have hm := h.some_v
  have hi : k / (g.comp 0).geom.cells (ordi a) < (g.comp 0).geom.cells (absc a) := (Nat.div_lt_iff_lt_mul hm).2 hk
  have hj : k % (g.comp 0).geom.cells (ordi a) < (g.comp 0).geom.cells (ordi a) := Nat.mod_lt _ hm
  obtain ⟨t', h1, _, _, hc⟩ := hv _ _ hi hj
  rw [Nat.div_add_mod' k] at h1
  rw [List.getElem?_eq_getElem (by rw [hl]; exact hk), ek] at h1
  cases h1
  rw [hc, ht _ _ hi hj, hs _ _ hi hj, hmin, hmax, esub, div_fin, if_pos (sub_self s), sub_self]
  unfold infTimes
  rw [if_neg (lt_irrefl _), if_neg (lt_irrefl _)]

end exact

/-- The vector `w` turned by the angle `t` (counter-clockwise). -/
noncomputable def turned (t : ℝ) (w : ℝ × ℝ) : ℝ × ℝ := (w.1 * Real.cos t - w.2 * Real.sin t, w.1 * Real.sin t + w.2 * Real.cos t)

/-- **C80: arrow heads.** In real arithmetic and whatever the scaling: if an arrow goes from `b` along `w`, its trace is `b`, the tip `b + w`, two barbs, and the tip again; the barbs end at the tip minus three tenths of `w` turned by +20° and by −20°. So the head
is symmetric about the arrow and points along it, and its barbs have 0.3 of the length of the arrow. -/
theorem C80_heads (g : VecGrid ℝ) (a : Fin 3) (sel : Sel) (h : g.Plottable a sel) (hax : a ≠ 1 ∨ ∃ k, sel = .plane k) (mode : Scaling ℝ) (f : QuiverFig ℝ)
    (hf : quiverPlot g a sel mode = .ok f) (i j : ℕ) (hi : i < (g.comp 0).geom.cells (absc a)) (hj : j < (g.comp 0).geom.cells (ordi a)) (b : ℝ × ℝ)
    (hb : placeOf (g.comp 0).geom a i j = (fin b.1, fin b.2)) :
    ∃ (t : ArrowTrace ℝ) (w : F ℝ × F ℝ), f.arrows[i * (g.comp 0).geom.cells (ordi a) + j]? = some t ∧ Draws t.points (fin b.1, fin b.2) w ∧
      ∀ u v, w = (fin u, fin v) → t.points = [(fin b.1, fin b.2), (fin (b.1 + u), fin (b.2 + v)),
        (fin (b.1 + u - 3 / 10 * (turned (Real.pi / 9) (u, v)).1), fin (b.2 + v - 3 / 10 * (turned (Real.pi / 9) (u, v)).2)),
        (fin (b.1 + u - 3 / 10 * (turned (-(Real.pi / 9)) (u, v)).1), fin (b.2 + v - 3 / 10 * (turned (-(Real.pi / 9)) (u, v)).2)),
        (fin (b.1 + u), fin (b.2 + v))] := by
  obtain ⟨q, hfit, hx, hy, hn, _, _, _, _, hv⟩ := figure_made g a sel h hax mode f hf
  obtain ⟨t, h1, h2, h3, _⟩ := hv i j hi hj
  have hp : (q.x.getD i nan, q.y.getD j nan) = (fin b.1, fin b.2) := by rw [hx, hy]; exact hb
  rw [hp] at h2 h3
  refine ⟨t, _, h1, h3, fun u v hw => ?_⟩
  have hu : q.u.get ![i, j] = fin u := congrArg Prod.fst hw
  have hv' : q.v.get ![i, j] = fin v := congrArg Prod.snd hw
  rw [hn i j hi hj, hu, hv'] at h2
  rw [h2]
  obtain ⟨s, es, hs0, hss⟩ := hypot_fin u v
  have ea : ∃ θ, F.atan2 (fin v) (fin u) = fin θ ∧ u = s * Real.cos θ ∧ v = s * Real.sin θ := by
    refine ⟨Complex.arg ⟨u, v⟩, rfl, ?_⟩
    exact ExactArith.atan2_spec v u _ _ _ rfl rfl rfl s hs0 hss
  obtain ⟨θ, eθ, hc, hs⟩ := ea
  have e9 : (headAngle : F ℝ) = fin (Real.pi / 9) := by
    unfold headAngle
    rw [eofNat]
    have : ((9 : ℕ) : ℝ) ≠ 0 := by norm_num
    change (fin Real.pi / fin _ : F ℝ) = _
    rw [ediv _ this]; norm_num
  have cosf : ∀ x : ℝ, (fin x : F ℝ).cos = fin (Real.cos x) := fun _ => rfl
  have sinf : ∀ x : ℝ, (fin x : F ℝ).sin = fin (Real.sin x) := fun _ => rfl
  unfold arrowOf Arrow.points
  dsimp only
  rw [mul_one_exact, es, eθ, e9, elit]
  simp only [eadd, esub, emul, cosf, sinf]
  have r1 : s * (3 / 10) * Real.cos (θ + Real.pi / 9) = 3 / 10 * (turned (Real.pi / 9) (u, v)).1 := by
    unfold turned; dsimp only; rw [Real.cos_add, hc, hs]; ring
  have r2 : s * (3 / 10) * Real.sin (θ + Real.pi / 9) = 3 / 10 * (turned (Real.pi / 9) (u, v)).2 := by
    unfold turned; dsimp only; rw [Real.sin_add, hc, hs]; ring
  have r3 : s * (3 / 10) * Real.cos (θ - Real.pi / 9) = 3 / 10 * (turned (-(Real.pi / 9)) (u, v)).1 := by
    unfold turned; dsimp only; rw [Real.cos_sub, Real.cos_neg, Real.sin_neg, hc, hs]; ring
  have r4 : s * (3 / 10) * Real.sin (θ - Real.pi / 9) = 3 / 10 * (turned (-(Real.pi / 9)) (u, v)).2 := by
    unfold turned; dsimp only; rw [Real.sin_sub, Real.cos_neg, Real.sin_neg, hc, hs]; ring
  rw [r1, r2, r3, r4]

/-- Turning keeps lengths, so both barbs are 0.3 times as long as the arrow. -/
theorem turned_length (t : ℝ) (w : ℝ × ℝ) : (turned t w).1 ^ 2 + (turned t w).2 ^ 2 = w.1 ^ 2 + w.2 ^ 2 := by
  unfold turned; dsimp only
  have := Real.sin_sq_add_cos_sq t
  calc _ = (w.1 ^ 2 + w.2 ^ 2) * (Real.sin t ^ 2 + Real.cos t ^ 2) := by ring
    _ = _ := by rw [this, mul_one]

/-- A field with two speeds: `(3, 4)` in the cells with `x` index 0 and `(6, 8)` in the others. -/
noncomputable def twoSpeeds : VecGrid ℝ := fieldGrid ![2, 3, 2] (fun _ => (6 : ℝ)) (fun k c => if c 0 = 0 then fin (![3, 4, 0] k) else fin (![6, 8, 0] k))

theorem twoSpeeds_plottable : twoSpeeds.Plottable 2 (.plane 0) :=
  fieldGrid_plottable _ (by intro a; fin_cases a <;> norm_num) _ _ (fun k c => by split_ifs <;> exact Or.inr ⟨_, rfl⟩) 2 _ (fun k hk => by cases hk; decide)

theorem twoSpeeds_speed (i j : ℕ) : speedAt twoSpeeds 2 (.plane 0) i j = if i = 0 then fin 5 else fin 10 := by
  have key : ∀ x y z : ℝ, 0 ≤ z → z * z = x * x + y * y → F.hypot (fin x) (fin y) = fin z := by
    intro x y z hz hzz
    obtain ⟨s, es, hs0, hss⟩ := hypot_fin x y
    rw [es]; congr 1
    nlinarith
  change F.hypot (if i = 0 then fin 3 else fin 6) (if i = 0 then fin 4 else fin 8) = _
  split_ifs
  · exact key _ _ _ (by norm_num) (by norm_num)
  · exact key _ _ _ (by norm_num) (by norm_num)

/-- Witness for C79: speeds 5 and 10; the colours are 0 and 1 also when the arrows are cut at length 6. -/
example : ∃ f t t', quiverPlot twoSpeeds (2 : Fin 3) (.plane 0) (.max (fin 6)) = .ok f ∧ f.cmin = fin 5 ∧ f.cmax = fin 10 ∧ f.arrows[0]? = some t ∧ t.colour = fin 0 ∧
    f.arrows[3]? = some t' ∧ t'.colour = fin 1 := by
  have hax : (2 : Fin 3) ≠ 1 ∨ ∃ k, Sel.plane 0 = .plane k := Or.inl (by decide)
  obtain ⟨f, e, _, _⟩ := C77_max twoSpeeds 2 (.plane 0) twoSpeeds_plottable hax 6 (by norm_num)
  have hlo : Least twoSpeeds 2 (.plane 0) 5 := by
    refine ⟨⟨0, 0, by decide, by decide, by rw [twoSpeeds_speed, if_pos rfl]⟩, fun i j s _ _ hs => ?_⟩
    rw [twoSpeeds_speed] at hs
    split_ifs at hs <;> cases hs <;> norm_num
  have hhi : Greatest twoSpeeds 2 (.plane 0) 10 := by
    refine ⟨⟨1, 0, by decide, by decide, by rw [twoSpeeds_speed, if_neg (by norm_num)]⟩, fun i j s _ _ hs => ?_⟩
    rw [twoSpeeds_speed] at hs
    split_ifs at hs <;> cases hs <;> norm_num
  obtain ⟨h1, h2, h3⟩ := C79_colours_partial twoSpeeds 2 (.plane 0) twoSpeeds_plottable hax (fun k i _ => by change (if i 0 = 0 then _ else _) = nan ∨ ∃ x, (if i 0 = 0 then _ else _) = fin x; split_ifs <;> exact Or.inr ⟨_, rfl⟩) 5 10 hlo hhi (by norm_num) _ f e
  obtain ⟨t, k1, k2, _⟩ := h3 0 0 (by decide) (by decide) 5 (by rw [twoSpeeds_speed, if_pos rfl])
  obtain ⟨t', k1', k2', _⟩ := h3 1 0 (by decide) (by decide) 10 (by rw [twoSpeeds_speed, if_neg (by norm_num)])
  refine ⟨f, t, t', e, h1, h2, by simpa using k1, by rw [k2]; norm_num, k1', by rw [k2']; norm_num⟩

/-- Witness for `C79_uniform`: the field `(3, 4, 12)` of C76. -/
example : ∃ f, quiverPlot (fieldGrid ![3, 4, 5] (fun _ => (60 : ℝ)) (fun k _ => fin (![3, 4, 12] k))) (2 : Fin 3) (.plane 0) .asIs = .ok f ∧ 0 < f.arrows.length ∧ ∀ t ∈ f.arrows, t.colour = nan := by
  have hp : (fieldGrid ![3, 4, 5] (fun _ => (60 : ℝ)) (fun k _ => fin (![3, 4, 12] k))).Plottable 2 (.plane 0) :=
    fieldGrid_plottable _ (by intro a; fin_cases a <;> norm_num) _ _ (fun _ _ => Or.inr ⟨_, rfl⟩) 2 _ (fun k hk => by cases hk; decide)
  obtain ⟨f, e, hl, _⟩ := C76_arrows_partial _ 2 (.plane 0) hp (Or.inl (by decide))
  obtain ⟨s, es, _, _⟩ := hypot_fin (3 : ℝ) 4
  exact ⟨f, e, by rw [hl]; decide, C79_uniform _ 2 (.plane 0) hp (Or.inl (by decide)) s (fun _ _ _ _ => es) _ f e⟩

end Up4
