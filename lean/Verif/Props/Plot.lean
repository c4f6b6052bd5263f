import Verif.Model.Plot
import Verif.Props.Maths
import Verif.Props.Collapse
import Verif.Props.Slice

set_option linter.unusedSectionVars false

/-! # What the plots show: specification and preparations for C76-C84 -/

namespace Up4
open F
open Selector (at')

variable {K : Type} [Field K] [LinearOrder K] [IsStrictOrderedRing K] [FloorRing K] [Arith K]

/-! ### Specification -/

/-- A grid as the constructors and analyses make them: one position per cell on each axis, arrays of the shape of the grid. -/
structure Grid.Regular (g : Grid K) : Prop where
  shaped : g.Shaped
  sized : ∀ a, (g.geom.positions a).length = g.geom.cells a

/-- A vector grid: three regular grids over one geometry. -/
structure VecGrid.Regular (g : VecGrid K) : Prop where
  same : ∀ k, (g.comp k).geom = (g.comp 0).geom
  regular : ∀ k, (g.comp k).Regular

/-- The selection can be shown: the plane exists; for a depth average the data are finite or NaN, the weights finite and not negative. -/
def Shows (g : Grid K) (a : Fin 3) : Sel → Prop
  | .plane k => k < g.geom.cells a
  | .depthAverage => FinOrNaN g.st.data ∧ FinNonneg g.st.weight

/-- What is to be shown at the place `(i, j)` of the plane normal to axis `a`: the value of the cell with index `k` on axis `a` and the indices `i`, `j` on
the two others, or the weighted mean over the cells with these two. -/
noncomputable def shown (g : Grid K) (a : Fin 3) : Sel → ℕ → ℕ → F K
  | .plane k, i, j => g.st.data.get (a.insertNth k ![i, j])
  | .depthAverage, i, j => weightedMean g.st (lineCells g.geom.cells a ![i, j])

/-- The position of cell `i` on axis `e`. -/
def posAt (g : Geom K) (e : Fin 3) (i : ℕ) : F K := (g.positions e).getD i nan

/-- The trace is an arrow from `b` to `b + w`. -/
def Draws (t : List (F K × F K)) (b w : F K × F K) : Prop :=
  t[0]? = some b ∧ t[1]? = some (b.1 + w.1, b.2 + w.2)

/-! ### Arrays -/

/-- All arrays of the plot have the shape given by the positions. -/
structure Vectors.Fits (q : Vectors K) (n m : ℕ) : Prop where
  hx : q.x.length = n
  hy : q.y.length = m
  hu : q.u.shape = ![n, m]
  hv : q.v.shape = ![n, m]
  hn : q.norm.shape = ![n, m]
  ht : q.trueNorm.shape = ![n, m]

theorem inB2 {n m i j : ℕ} (hi : i < n) (hj : j < m) : InB ![n, m] ![i, j] := by
  intro k; fin_cases k
  · exact hi
  · exact hj

theorem zip_some {α β : Type} {l : List α} {r : List β} {k : ℕ} {a : α} {b : β} (h1 : l[k]? = some a) (h2 : r[k]? = some b) :
    (l.zip r)[k]? = some (a, b) := by
  rw [List.getElem?_zip_eq_some]; exact ⟨h1, h2⟩

/-- The arrow the code draws from `b` for the vector `(u, v)` of norm `n`. -/
def arrowOf (b : F K × F K) (u v n : F K) : Arrow K :=
  let e : F K × F K := (b.1 + u * 1, b.2 + v)
  let t := F.atan2 v (u * 1)
  let len := n * F.lit (3 / 10)
  ⟨b, e, (e.1 - len * (t + headAngle).cos, e.2 - len * (t + headAngle).sin), (e.1 - len * (t - headAngle).cos, e.2 - len * (t - headAngle).sin)⟩

theorem createArrows_spec (q : Vectors K) {n m : ℕ} (h : q.Fits n m) :
    ∃ l, q.createArrows = .ok l ∧ l.length = n * m ∧
      ∀ i j, i < n → j < m → l[i * m + j]? = some (arrowOf (q.x.getD i nan, q.y.getD j nan) (q.u.get ![i, j]) (q.v.get ![i, j]) (q.norm.get ![i, j])) := by
  obtain ⟨xx, yy, e, sx, sy, hxy⟩ := C55_meshgrid q.x q.y
  rw [h.hx, h.hy] at sx sy
  unfold Vectors.createArrows
  dsimp only
  set len := q.norm.map (· * F.lit (3 / 10)) with hlen
  set u := q.u.map (· * 1) with hu'
  have slen : len.shape = ![n, m] := h.hn
  have su : u.shape = ![n, m] := h.hu
  have ea : zipSame F.atan2 q.v u = .ok ⟨![n, m], fun i => F.atan2 (q.v.get i) (u.get i)⟩ := by
    unfold zipSame; rw [if_pos (by rw [h.hv, su]), h.hv]
  rw [ea, run_bind_ok, e, run_bind_ok]
  set ang : Arr 2 (F K) := ⟨![n, m], fun i => F.atan2 (q.v.get i) (u.get i)⟩ with hang
  have sang : ∀ f : F K → F K, (ang.map f).shape = ![n, m] := fun _ => rfl
  have key : ∀ (f : F K → F K → F K) (a b : Arr 2 (F K)), a.shape = ![n, m] → b.shape = ![n, m] →
      ∃ r, Arr.zipWith f a b = .ok r ∧ r.shape = ![n, m] ∧ ∀ i j, i < n → j < m → r.get ![i, j] = f (a.get ![i, j]) (b.get ![i, j]) := by
    intro f a b ha hb
    obtain ⟨r, h1, h2, h3⟩ := Arr.zipWith_same f a b (by rw [ha, hb])
    exact ⟨r, h1, by rw [h2, ha], fun i j hi hj => h3 _ (by rw [ha]; exact inB2 hi hj)⟩
  obtain ⟨s1x, e1, t1, v1⟩ := key (· * ·) len ((ang.map (· + headAngle)).map F.cos) slen rfl
  obtain ⟨s1y, e2, t2, v2⟩ := key (· * ·) len ((ang.map (· + headAngle)).map F.sin) slen rfl
  obtain ⟨s2x, e3, t3, v3⟩ := key (· * ·) len ((ang.map (· - headAngle)).map F.cos) slen rfl
  obtain ⟨s2y, e4, t4, v4⟩ := key (· * ·) len ((ang.map (· - headAngle)).map F.sin) slen rfl
  obtain ⟨ex, e5, t5, v5⟩ := key (· + ·) xx u sx su
  obtain ⟨ey, e6, t6, v6⟩ := key (· + ·) yy q.v sy h.hv
  obtain ⟨p1x, e7, t7, v7⟩ := key (· - ·) ex s1x t5 t1
  obtain ⟨p1y, e8, t8, v8⟩ := key (· - ·) ey s1y t6 t2
  obtain ⟨p2x, e9, t9, v9⟩ := key (· - ·) ex s2x t5 t3
  obtain ⟨p2y, e10, t10, v10⟩ := key (· - ·) ey s2y t6 t4
  rw [e1, run_bind_ok, e2, run_bind_ok, e3, run_bind_ok, e4, run_bind_ok, e5, run_bind_ok, e6, run_bind_ok, e7, run_bind_ok, e8, run_bind_ok,
    e9, run_bind_ok, e10, run_bind_ok]
  refine ⟨_, rfl, ?_, ?_⟩
  · have L : ∀ a : Arr 2 (F K), a.shape = ![n, m] → (flatten a).length = n * m := fun a ha => (C55_flatten2 a n m ha).1
    simp only [List.length_map, List.length_zip, L _ sx, L _ sy, L _ t5, L _ t6, L _ t7, L _ t8, L _ t9, L _ t10, min_self]
  · intro i j hi hj
    have G : ∀ a : Arr 2 (F K), a.shape = ![n, m] → (flatten a)[i * m + j]? = some (a.get ![i, j]) := fun a ha => (C55_flatten2 a n m ha).2 i j hi hj
    rw [List.getElem?_map, zip_some (zip_some (zip_some (G _ sx) (G _ sy)) (zip_some (G _ t5) (G _ t6)))
      (zip_some (zip_some (G _ t7) (G _ t8)) (zip_some (G _ t9) (G _ t10)))]
    obtain ⟨hx, hy⟩ := hxy i j (by rw [h.hx]; exact hi) (by rw [h.hy]; exact hj)
    have gx : q.x.getD i nan = q.x[i]'(by rw [h.hx]; exact hi) := getD_lt _ _
    have gy : q.y.getD j nan = q.y[j]'(by rw [h.hy]; exact hj) := getD_lt _ _
    rw [Option.map_some, v7 i j hi hj, v8 i j hi hj, v9 i j hi hj, v10 i j hi hj, v5 i j hi hj, v6 i j hi hj, v1 i j hi hj, v2 i j hi hj,
      v3 i j hi hj, v4 i j hi hj, hx, hy]
    unfold arrowOf
    rw [gx, gy]
    rfl

/-! ### The planes -/

theorem succAbove_zero (a : Fin 3) : a.succAbove 0 = absc a := by fin_cases a <;> rfl
theorem succAbove_one (a : Fin 3) : a.succAbove 1 = ordi a := by fin_cases a <;> rfl
theorem compU_eq (a : Fin 3) : compU a = absc a := rfl
theorem compV_eq (a : Fin 3) : compV a = ordi a := rfl

theorem cells_pair (s : CellId) (a : Fin 3) : (fun j => s (a.succAbove j)) = ![s (absc a), s (ordi a)] := by
  funext j; fin_cases j
  · change s (a.succAbove 0) = _; rw [succAbove_zero]; rfl
  · change s (a.succAbove 1) = _; rw [succAbove_one]; rfl

section exact
variable [ExactArith K]

theorem planeOf_spec (g : Grid K) (hg : g.Shaped) (a : Fin 3) (sel : Sel) (h : Shows g a sel) :
    ∃ r, planeOf g a sel = .ok r ∧ r.shape = ![g.geom.cells (absc a), g.geom.cells (ordi a)] ∧
      ∀ i j, i < g.geom.cells (absc a) → j < g.geom.cells (ordi a) → r.get ![i, j] = shown g a sel i j := by
  cases sel with
  | plane k =>
    have hk : k < g.st.data.shape a := by rw [hg.1]; exact h
    refine ⟨_, by unfold planeOf Grid.sliceIdx Store.sliceAt; dsimp only; rw [dif_pos a.2]; exact if_pos hk, ?_, fun i j _ _ => rfl⟩
    change (fun j => g.st.data.shape (a.succAbove j)) = _
    rw [hg.1, cells_pair]
  | depthAverage =>
    obtain ⟨r, h1, h2, h3⟩ := C12_collapse g (by rw [hg.1, hg.2]) h.1 h.2 a
    have hs : r.shape = ![g.geom.cells (absc a), g.geom.cells (ordi a)] := by rw [h2, hg.1, cells_pair]
    refine ⟨r, h1, hs, fun i j hi hj => ?_⟩
    rw [(h3 ![i, j] (by rw [hs]; exact inB2 hi hj)).1, hg.1]
    rfl

/-- What `QuiverPlot` starts from. -/
theorem quiver_spec (g : VecGrid K) (hg : g.Regular) (a : Fin 3) (sel : Sel) (hsel : ∀ k, Shows (g.comp k) a sel) :
    ∃ q, Vectors.quiver g a sel = .ok q ∧
      q.x = (g.comp 0).geom.positions (quiverAbsc a sel) ∧ q.y = (g.comp 0).geom.positions (ordi a) ∧
      (∀ r ∈ [q.u, q.v, q.norm, q.trueNorm], r.shape = ![(g.comp 0).geom.cells (absc a), (g.comp 0).geom.cells (ordi a)]) ∧
      ∀ i j, i < (g.comp 0).geom.cells (absc a) → j < (g.comp 0).geom.cells (ordi a) →
        q.u.get ![i, j] = shown (g.comp (absc a)) a sel i j ∧ q.v.get ![i, j] = shown (g.comp (ordi a)) a sel i j ∧
        q.norm.get ![i, j] = F.hypot (shown (g.comp (absc a)) a sel i j) (shown (g.comp (ordi a)) a sel i j) ∧
        q.trueNorm.get ![i, j] = F.hypot (shown (g.comp (absc a)) a sel i j) (shown (g.comp (ordi a)) a sel i j) := by
  obtain ⟨u, eu, su, vu⟩ := planeOf_spec (g.comp (absc a)) (hg.regular _).shaped a sel (hsel _)
  obtain ⟨v, ev, sv, vv⟩ := planeOf_spec (g.comp (ordi a)) (hg.regular _).shaped a sel (hsel _)
  rw [hg.same] at su sv vu vv
  unfold Vectors.quiver
  have ez : zipSame F.hypot u v = .ok ⟨u.shape, fun i => F.hypot (u.get i) (v.get i)⟩ := by
    unfold zipSame; rw [if_pos (by rw [su, sv])]
  rw [compU_eq, compV_eq, eu, run_bind_ok, ev, run_bind_ok, ez, run_bind_ok]
  refine ⟨_, rfl, rfl, rfl, ?_, ?_⟩
  · intro r hr
    simp only [List.mem_cons, List.not_mem_nil, or_false] at hr
    rcases hr with rfl | rfl | rfl | rfl
    exacts [su, sv, su, su]
  intro i j hi hj
  have h1 := vu i j hi hj
  have h2 := vv i j hi hj
  exact ⟨h1, h2, by change F.hypot (u.get _) (v.get _) = _; rw [h1, h2], by change F.hypot (u.get _) (v.get _) = _; rw [h1, h2]⟩

/-- The abscissae of the quiver plot are those of the plane unless the depth average along axis 1 is taken. -/
theorem quiverAbsc_eq (a : Fin 3) (sel : Sel) (h : a ≠ 1 ∨ ∃ k, sel = .plane k) : quiverAbsc a sel = absc a := by
  cases sel with
  | plane k => rfl
  | depthAverage =>
    rcases h with h | ⟨k, h⟩
    · fin_cases a
      · rfl
      · exact absurd rfl h
      · rfl
    · cases h

theorem fits_of (g : VecGrid K) (hg : g.Regular) (a : Fin 3) (sel : Sel) (h : a ≠ 1 ∨ ∃ k, sel = .plane k) (q : Vectors K)
    (h1 : q.x = (g.comp 0).geom.positions (quiverAbsc a sel)) (h2 : q.y = (g.comp 0).geom.positions (ordi a))
    (h3 : ∀ r ∈ [q.u, q.v, q.norm, q.trueNorm], r.shape = ![(g.comp 0).geom.cells (absc a), (g.comp 0).geom.cells (ordi a)]) :
    q.Fits ((g.comp 0).geom.cells (absc a)) ((g.comp 0).geom.cells (ordi a)) :=
  ⟨by rw [h1, quiverAbsc_eq a sel h]; exact (hg.regular 0).sized _, by rw [h2]; exact (hg.regular 0).sized _, h3 _ (by simp), h3 _ (by simp),
    h3 _ (by simp), h3 _ (by simp)⟩

theorem mul_one_exact (x : F K) : x * 1 = x := by
  cases x with
  | nan => rfl
  | pinf => change infTimes (1 : K) = pinf; unfold infTimes; rw [if_pos one_pos]
  | ninf => change infTimes (-1 : K) = ninf; unfold infTimes; rw [if_neg (by simp), if_pos (by simp)]
  | fin x => rw [one_def, emul, mul_one]

/-- From a plot with given arrays to the figure. -/
theorem figure_of (g : VecGrid K) (a : Fin 3) (sel : Sel) (mode : Scaling K) (q q' : Vectors K) {n m : ℕ} (hq : Vectors.quiver g a sel = .ok q)
    (hs : q.scale mode = .ok q') (h : q'.Fits n m) (hn : 0 < n) (hm : 0 < m) :
    ∃ f, quiverPlot g a sel mode = .ok f ∧ f.arrows.length = n * m ∧ f.cmin = minSkipNaN (flatten q'.trueNorm) ∧ f.cmax = maxSkipNaN (flatten q'.trueNorm) ∧
      ∀ i j, i < n → j < m → ∃ t, f.arrows[i * m + j]? = some t ∧
        t.points = (arrowOf (q'.x.getD i nan, q'.y.getD j nan) (q'.u.get ![i, j]) (q'.v.get ![i, j]) (q'.norm.get ![i, j])).points ∧
        Draws t.points (q'.x.getD i nan, q'.y.getD j nan) (q'.u.get ![i, j], q'.v.get ![i, j]) ∧
        t.colour = (q'.trueNorm.get ![i, j] - f.cmin) / (f.cmax - f.cmin) := by
  obtain ⟨l, e, hl, hv⟩ := createArrows_spec q' h
  have h0 : at' q'.x 0 = .ok (q'.x[0]'(by rw [h.hx]; exact hn)) := by unfold at'; rw [List.getElem?_eq_getElem (by rw [h.hx]; exact hn)]
  have h1 : at' q'.y 0 = .ok (q'.y[0]'(by rw [h.hy]; exact hm)) := by unfold at'; rw [List.getElem?_eq_getElem (by rw [h.hy]; exact hm)]
  unfold quiverPlot
  rw [hq, run_bind_ok, hs, run_bind_ok, e, run_bind_ok, h0, run_bind_ok, h1, run_bind_ok]
  obtain ⟨fl, fv⟩ := C55_flatten2 q'.trueNorm n m h.ht
  refine ⟨_, rfl, ?_, rfl, rfl, ?_⟩
  · simp [Vectors.colours, hl, fl]
  · intro i j hi hj
    have c : q'.colours[i * m + j]? = some ((q'.trueNorm.get ![i, j] - minSkipNaN (flatten q'.trueNorm)) /
        (maxSkipNaN (flatten q'.trueNorm) - minSkipNaN (flatten q'.trueNorm))) := by
      unfold Vectors.colours; dsimp only; rw [List.getElem?_map, fv i j hi hj]; rfl
    refine ⟨_, by rw [List.getElem?_map, zip_some (hv i j hi hj) c]; rfl, rfl, ⟨rfl, ?_⟩, rfl⟩
    unfold arrowOf Arrow.points
    dsimp only
    rw [mul_one_exact]
    rfl

/-! ### Scaling -/

theorem hypot_fin (a b : K) : ∃ s, F.hypot (fin a) (fin b) = fin s ∧ 0 ≤ s ∧ s * s = a * a + b * b :=
  ExactArith.sqrt_eq _ (by nlinarith [mul_self_nonneg a, mul_self_nonneg b])

theorem renorm_ok (q : Vectors K) {n m : ℕ} (h : q.Fits n m) :
    ∃ q', q.renorm = .ok q' ∧ q'.Fits n m ∧ q'.x = q.x ∧ q'.y = q.y ∧ q'.trueNorm = q.trueNorm ∧ q'.u = q.u ∧ q'.v = q.v ∧
      ∀ c, q'.norm.get c = F.hypot (q.u.get c) (q.v.get c) := by
  unfold Vectors.renorm zipSame
  rw [if_pos (by rw [h.hu, h.hv]), run_bind_ok]
  exact ⟨_, rfl, ⟨h.hx, h.hy, h.hu, h.hv, h.hu, h.ht⟩, rfl, rfl, rfl, rfl, rfl, fun _ => rfl⟩

theorem scaleBy_ok (q : Vectors K) {n m : ℕ} (h : q.Fits n m) (f : F K → F K) :
    ∃ q', q.scaleBy f = .ok q' ∧ q'.Fits n m ∧ q'.x = q.x ∧ q'.y = q.y ∧ q'.trueNorm = q.trueNorm ∧
      (∀ c, q'.u.get c = q.u.get c * f (q.norm.get c)) ∧ (∀ c, q'.v.get c = q.v.get c * f (q.norm.get c)) ∧
      ∀ c, q'.norm.get c = F.hypot (q'.u.get c) (q'.v.get c) := by
  obtain ⟨q', e, hf, h1, h2, h3, h4, h5, h6⟩ := renorm_ok { q with
    u := ⟨q.u.shape, fun i => q.u.get i * f (q.norm.get i)⟩
    v := ⟨q.v.shape, fun i => q.v.get i * f (q.norm.get i)⟩ } (n := n) (m := m) ⟨h.hx, h.hy, h.hu, h.hv, h.hn, h.ht⟩
  refine ⟨q', e, hf, h1, h2, h3, fun c => by rw [h4], fun c => by rw [h5], fun c => by rw [h6, h4, h5]⟩

theorem boundNode_ok (q : Vectors K) {n m : ℕ} (h : q.Fits n m) (c d : F K) :
    ∃ q', q.boundNode c d = .ok q' ∧ q'.Fits n m ∧ q'.x = q.x ∧ q'.y = q.y ∧ q'.trueNorm = q.trueNorm ∧
      (∀ k, q'.u.get k = q.u.get k * (c / maxSkipNaN (flatten q.norm))) ∧ (∀ k, q'.v.get k = q.v.get k * (d / maxSkipNaN (flatten q.norm))) ∧
      ∀ k, q'.norm.get k = F.hypot (q'.u.get k) (q'.v.get k) := by
  obtain ⟨q', e, hf, h1, h2, h3, h4, h5, h6⟩ := renorm_ok { q with
    u := q.u.map (· * (c / maxSkipNaN (flatten q.norm)))
    v := q.v.map (· * (d / maxSkipNaN (flatten q.norm))) } (n := n) (m := m) ⟨h.hx, h.hy, h.hu, h.hv, h.hn, h.ht⟩
  exact ⟨q', e, hf, h1, h2, h3, fun c => by rw [h4]; rfl, fun c => by rw [h5]; rfl, fun c => by rw [h6, h4, h5]⟩

theorem skipNaN_min (l : List (F K)) (h : ∃ x ∈ l, x ≠ nan) :
    minSkipNaN l ∈ l ∧ minSkipNaN l ≠ nan ∧ ∀ x ∈ l, x ≠ nan → minSkipNaN l ≤ x := by
  have mem : ∀ x, x ∈ l.filter (fun x => !x.isNaN) ↔ x ∈ l ∧ x ≠ nan := by
    intro x; rw [List.mem_filter]; cases x <;> simp [F.isNaN]
  match e : l.filter (fun x => !x.isNaN) with
  | [] =>
    obtain ⟨x, hx, hn⟩ := h
    have := (mem x).2 ⟨hx, hn⟩
    rw [e] at this; cases this
  | x :: r =>
    rw [show minSkipNaN l = r.foldl (fun s v => if v < s then v else s) x from by unfold minSkipNaN; rw [e]]
    rw [e] at mem
    have hx := (mem x).1 List.mem_cons_self
    obtain ⟨h1, h2, h3⟩ := fold_min r x hx.2
    refine ⟨?_, ?_, ?_⟩
    · rcases h3 with h3 | h3
      · rw [h3]; exact hx.1
      · exact ((mem _).1 (List.mem_cons_of_mem _ h3)).1
    · intro hh; rw [hh] at h1; exact nan_le _ h1
    · intro y hy hn
      rcases List.mem_cons.1 ((mem y).2 ⟨hy, hn⟩) with rfl | hy'
      · exact h1
      · exact h2 y hy' hn

theorem skipNaN_max (l : List (F K)) (h : ∃ x ∈ l, x ≠ nan) :
    maxSkipNaN l ∈ l ∧ maxSkipNaN l ≠ nan ∧ ∀ x ∈ l, x ≠ nan → x ≤ maxSkipNaN l := by
  have mem : ∀ x, x ∈ l.filter (fun x => !x.isNaN) ↔ x ∈ l ∧ x ≠ nan := by
    intro x; rw [List.mem_filter]; cases x <;> simp [F.isNaN]
  match e : l.filter (fun x => !x.isNaN) with
  | [] =>
    obtain ⟨x, hx, hn⟩ := h
    have := (mem x).2 ⟨hx, hn⟩
    rw [e] at this; cases this
  | x :: r =>
    rw [show maxSkipNaN l = r.foldl (fun s v => if v > s then v else s) x from by unfold maxSkipNaN; rw [e]]
    rw [e] at mem
    have hx := (mem x).1 List.mem_cons_self
    obtain ⟨h1, h2, h3⟩ := fold_max r x hx.2
    refine ⟨?_, ?_, ?_⟩
    · rcases h3 with h3 | h3
      · rw [h3]; exact hx.1
      · exact ((mem _).1 (List.mem_cons_of_mem _ h3)).1
    · intro hh; rw [hh] at h1; exact le_nan _ h1
    · intro y hy hn
      rcases List.mem_cons.1 ((mem y).2 ⟨hy, hn⟩) with rfl | hy'
      · exact h1
      · exact h2 y hy' hn

/-- The entries of a flattened table. -/
theorem mem_flatten2 (r : Arr 2 (F K)) {n m : ℕ} (h : r.shape = ![n, m]) (x : F K) :
    x ∈ flatten r ↔ ∃ i j, i < n ∧ j < m ∧ r.get ![i, j] = x := by
  unfold flatten
  rw [List.mem_map]
  constructor
  · rintro ⟨c, hc, rfl⟩
    rw [mem_indices, h] at hc
    refine ⟨c 0, c 1, hc 0, hc 1, ?_⟩
    congr 1; funext k; fin_cases k <;> rfl
  · rintro ⟨i, j, hi, hj, rfl⟩
    exact ⟨_, by rw [mem_indices, h]; exact inB2 hi hj, rfl⟩

end exact

end Up4
