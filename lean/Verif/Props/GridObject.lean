import Verif.Model.GridObject
import Verif.Props.Maps
import Verif.Props.Maths
import Verif.Props.Cylinder
import Verif.Props.Pooling
import Verif.Props.CartLookup
import Verif.Props.Units

set_option linter.unusedSectionVars false

/-!
# C115-C118: what a grid object shows
-/

namespace Up4
open F

variable {K : Type} [Field K] [LinearOrder K] [IsStrictOrderedRing K] [FloorRing K] [Arith K]

/-! ### C115: published positions of cylindrical grids -/

/-- The number of published positions along each axis is the number of cells. -/
theorem C115_lengths (cells : CellId) (lim : Limits K) (a : Fin 3) :
    ((Geom.cart (CartGeom.new cells lim)).positions a).length = cells a ∧ ((Geom.cyl (CylGeom.new cells lim)).positions a).length = cells a := by
  constructor
  · change ((CartGeom.new cells lim).positions a).length = _
    unfold CartGeom.new
    simp
  · fin_cases a
    · change ((CylGeom.shells _ _ _ _).map _).length = _
      rw [List.length_map, CylGeom.shells_length]
      rfl
    · change ((List.range (cells 1)).map _).length = _
      simp
    · change ((List.range (cells 2)).map _).length = _
      simp

/-- The point with cylindrical coordinates `r`, `θ`, `z` about the axis of the box. -/
noncomputable def aboutAxis (lo hi : Fin 3 → ℝ) (r θ z : ℝ) : Pos ℝ :=
  finPos ![(lo 0 + hi 0) / 2 + r * Real.cos θ, (lo 1 + hi 1) / 2 + r * Real.sin θ, z]

theorem aboutAxis_cylindrical (cells : CellId) (lo hi : Fin 3 → ℝ) (r θ z : ℝ) (hr : 0 < r) (hθ : -Real.pi < θ ∧ θ ≤ Real.pi) :
    (CylGeom.new cells (finLimits lo hi)).toCylindrical (aboutAxis lo hi r θ z) = ![fin r, fin θ, fin z] := by
  have hc0 : (CylGeom.new cells (finLimits lo hi)).center 0 = fin ((lo 0 + hi 0) / 2) := by
    change (fin (lo 0) + fin (hi 0)) / F.ofNat 2 = _
    rw [eadd, eofNat, ediv _ (by norm_num)]
    norm_num
  have hc1 : (CylGeom.new cells (finLimits lo hi)).center 1 = fin ((lo 1 + hi 1) / 2) := by
    change (fin (lo 1) + fin (hi 1)) / F.ofNat 2 = _
    rw [eadd, eofNat, ediv _ (by norm_num)]
    norm_num
  have e0 : aboutAxis lo hi r θ z 0 = fin ((lo 0 + hi 0) / 2 + r * Real.cos θ) := rfl
  have e1 : aboutAxis lo hi r θ z 1 = fin ((lo 1 + hi 1) / 2 + r * Real.sin θ) := rfl
  have e2 : aboutAxis lo hi r θ z 2 = fin z := rfl
  unfold CylGeom.toCylindrical
  dsimp only
  rw [hc0, hc1, e0, e1, e2, esub, esub, add_sub_cancel_left, add_sub_cancel_left, emul, emul, eadd]
  have h1 : (fin (r * Real.cos θ * (r * Real.cos θ) + r * Real.sin θ * (r * Real.sin θ)) : F ℝ).sqrt = fin r := by
    have : r * Real.cos θ * (r * Real.cos θ) + r * Real.sin θ * (r * Real.sin θ) = r * r := by
      have := Real.sin_sq_add_cos_sq θ
      nlinarith
    rw [this]
    obtain ⟨T, t1, t2, t3⟩ := sqrt_root (K := ℝ) (mul_self_nonneg r)
    rw [t1, (mul_self_inj t2 hr.le).1 t3]
  have h2 : F.atan2 (fin (r * Real.sin θ)) (fin (r * Real.cos θ)) = (fin θ : F ℝ) := by
    change (fin (Complex.arg ⟨r * Real.cos θ, r * Real.sin θ⟩) : F ℝ) = fin θ
    congr 1
    have : (⟨r * Real.cos θ, r * Real.sin θ⟩ : ℂ) = (r : ℂ) * (Complex.cos θ + Complex.sin θ * Complex.I) := by
      apply Complex.ext
      · rw [Complex.mul_re, Complex.add_re, Complex.mul_re, Complex.I_re, Complex.I_im, Complex.ofReal_im, Complex.ofReal_re, Complex.cos_ofReal_re, Complex.sin_ofReal_im]
        simp
      · rw [Complex.mul_im, Complex.add_im, Complex.mul_im, Complex.I_re, Complex.I_im, Complex.ofReal_im, Complex.ofReal_re, Complex.cos_ofReal_im, Complex.sin_ofReal_re]
        simp
    rw [this, Complex.arg_mul_cos_add_sin_mul_I hr ⟨hθ.1, hθ.2⟩]
  rw [h1, h2]

/-- **C115, the part that holds.** In exact arithmetic, looking up the published position of a cell of a cylindrical grid returns the cell. Missing: the positions
are not the centres of the cells; in angle and height they are the upper edges (`C115_false`). -/
theorem C115_lookup_partial (cells : CellId) (hc : CellsOk cells) (lo hi : Fin 3 → ℝ) (hlt : ∀ a, lo a < hi a) :
    let g := CylGeom.new cells (finLimits lo hi)
    ∃ r θ z : ℕ → ℝ, (Geom.cyl g).positions 0 = (List.range (cells 0)).map (fun i => fin (r i)) ∧
      (Geom.cyl g).positions 1 = (List.range (cells 1)).map (fun j => fin (θ j)) ∧
      (Geom.cyl g).positions 2 = (List.range (cells 2)).map (fun k => fin (z k)) ∧
      (∀ j, θ j = -Real.pi + (j + 1) * (2 * Real.pi / cells 1)) ∧ (∀ k, z k = lo 2 + (k + 1) * ((hi 2 - lo 2) / cells 2)) ∧
      ∀ i j k, i < cells 0 → j < cells 1 → k < cells 2 →
        g.isInside (aboutAxis lo hi (r i) (θ j) (z k)) = true ∧ g.cellId (aboutAxis lo hi (r i) (θ j) (z k)) = .ok (some ![i, j, k]) := by
  intro g
  obtain ⟨R, s, hR, hRp, hrad, hrp, h0, hn, hmono, _, hmean⟩ := C19_shells cells lo hi hlt (hc 0).1
  have hn1 : (0 : ℝ) < cells 1 := by exact_mod_cast (hc 1).1
  have hn2 : (0 : ℝ) < cells 2 := by exact_mod_cast (hc 2).1
  have hh1 : 0 < 2 * Real.pi / cells 1 := div_pos (by have := Real.pi_pos; linarith) hn1
  have hh2 : 0 < (hi 2 - lo 2) / cells 2 := div_pos (sub_pos.2 (hlt 2)) hn2
  refine ⟨fun i => (s i + s (i + 1)) / 2, fun j => -Real.pi + (j + 1) * (2 * Real.pi / cells 1), fun k => lo 2 + (k + 1) * ((hi 2 - lo 2) / cells 2),
    hmean, ?_, ?_, fun _ => rfl, fun _ => rfl, ?_⟩
  · change (List.range (cells 1)).map (CylGeom.opos (cells 1)) = _
    refine List.map_congr_left fun j _ => ?_
    unfold CylGeom.opos
    change (fin (-Real.pi) : F ℝ) + F.ofNat j * ((F.ofNat 2 * fin Real.pi) / F.ofNat (cells 1)) + (F.ofNat 2 * fin Real.pi) / F.ofNat (cells 1) = _
    rw [eofNat, eofNat, eofNat, emul, ediv _ hn1.ne', emul, eadd, eadd]
    congr 1
    push_cast
    ring
  · change (List.range (cells 2)).map (CylGeom.zpos (fin (lo 2), fin (hi 2)) (cells 2)) = _
    refine List.map_congr_left fun k _ => ?_
    unfold CylGeom.zpos
    dsimp only
    rw [esub, eofNat, eofNat, ediv _ hn2.ne', emul, eadd, eadd]
    congr 1
    ring
  · intro i j k hi' hj hk
    have hs0 : ∀ i, 0 ≤ s i := fun i => by
      rcases Nat.eq_zero_or_pos i with rfl | h
      · rw [h0]
      · rw [← h0]; exact (hmono 0 i h).le
    have hii := hmono i (i + 1) (by omega)
    have hrpos : 0 < (s i + s (i + 1)) / 2 := by have := hs0 i; linarith
    have hjn : ((j : ℝ) + 1) ≤ cells 1 := by exact_mod_cast hj
    have hkn : ((k : ℝ) + 1) ≤ cells 2 := by exact_mod_cast hk
    have hj0 : (0 : ℝ) ≤ j := Nat.cast_nonneg j
    have hk0 : (0 : ℝ) ≤ k := Nat.cast_nonneg k
    have hθ1 : -Real.pi < -Real.pi + ((j : ℝ) + 1) * (2 * Real.pi / cells 1) := by
      have : 0 < ((j : ℝ) + 1) * (2 * Real.pi / cells 1) := mul_pos (by linarith) hh1
      linarith
    have hθ2 : -Real.pi + ((j : ℝ) + 1) * (2 * Real.pi / cells 1) ≤ Real.pi := by
      have h1 := mul_le_mul_of_nonneg_right hjn hh1.le
      rw [mul_div_cancel₀ _ hn1.ne'] at h1
      linarith
    have hz1 : lo 2 ≤ lo 2 + ((k : ℝ) + 1) * ((hi 2 - lo 2) / cells 2) := by
      have : 0 < ((k : ℝ) + 1) * ((hi 2 - lo 2) / cells 2) := mul_pos (by linarith) hh2
      linarith
    have hz2 : lo 2 + ((k : ℝ) + 1) * ((hi 2 - lo 2) / cells 2) ≤ hi 2 := by
      have h1 := mul_le_mul_of_nonneg_right hkn hh2.le
      rw [mul_div_cancel₀ _ hn2.ne'] at h1
      linarith
    set r := (s i + s (i + 1)) / 2 with hr
    set θ := -Real.pi + ((j : ℝ) + 1) * (2 * Real.pi / cells 1) with hθ
    set z := lo 2 + ((k : ℝ) + 1) * ((hi 2 - lo 2) / cells 2) with hz
    have hcyl := aboutAxis_cylindrical cells lo hi r θ z hrpos ⟨hθ1, hθ2⟩
    have hrR : r ≤ R := by
      rw [← hn]
      have : s (i + 1) ≤ s (cells 0) := by
        rcases (Nat.succ_le_of_lt hi').lt_or_eq with h | h
        · exact (hmono _ _ h).le
        · rw [← h]
      linarith
    have hin : g.isInside (aboutAxis lo hi r θ z) = true := by
      unfold CylGeom.isInside
      rw [hcyl]
      have l1 : g.limits 1 = (fin (-Real.pi), fin Real.pi) := rfl
      have l2 : g.limits 2 = (fin (lo 2), fin (hi 2)) := rfl
      have l0 : g.radius = fin R := hrad
      rw [l0, l1, l2]
      change (decide (fin r ≤ fin R) && decide (fin (-Real.pi) ≤ fin θ ∧ fin θ ≤ fin Real.pi) && decide (fin (lo 2) ≤ fin z ∧ fin z ≤ fin (hi 2))) = true
      simp only [F.le_fin, Bool.and_eq_true, decide_eq_true_eq]
      exact ⟨⟨hrR, hθ1.le, hθ2⟩, hz1, hz2⟩
    refine ⟨hin, ?_⟩
    obtain ⟨c, sh, θ', z', k1, k2, k3, k4, k5, k6, k7⟩ := C21_cell_partial cells hc lo hi hlt _ hin
    rw [k1]
    rw [hcyl] at k3 k4
    have hθ' : θ' = θ := (F.fin.inj k4).symm
    have hz' : z' = z := (F.fin.inj k5).symm
    subst hθ' hz'
    have hb0 : c 0 < cells 0 := by
      have := (List.getElem?_eq_some_iff.1 k2).1
      rw [hrp, List.length_map, List.length_range] at this
      exact this
    have c0 : c 0 = i := by
      rw [hrp, List.getElem?_map, List.getElem?_range hb0, Option.map_some] at k2
      obtain rfl := Option.some.inj k2
      change (fin (s (c 0)) ≤ fin r) ∧ (fin r ≤ fin (s (c 0 + 1))) at k3
      rw [F.le_fin, F.le_fin] at k3
      rcases lt_trichotomy (c 0) i with h | h | h
      · exfalso
        have : s (c 0 + 1) ≤ s i := by
          rcases (Nat.succ_le_of_lt h).lt_or_eq with h' | h'
          · exact (hmono _ _ h').le
          · rw [← h']
        linarith [k3.2]
      · exact h
      · exfalso
        have : s (i + 1) ≤ s (c 0) := by
          rcases (Nat.succ_le_of_lt h).lt_or_eq with h' | h'
          · exact (hmono _ _ h').le
          · rw [← h']
        linarith [k3.1]
    have hpi : (Arith.piK - -Arith.piK : ℝ) / (cells 1 : ℝ) = 2 * Real.pi / cells 1 := by
      change (Real.pi - -Real.pi) / (cells 1 : ℝ) = _
      ring
    rw [hpi] at k6
    have edge : ∀ (a h : ℝ) (n m q : ℕ), 0 < h → q < n → NearestEdge a h n m (a + ((q : ℝ) + 1) * h) → m = q := by
      intro a h n m q hh hq hN
      refine C21_upper_half hh hN hq ?_ le_rfl (Or.inr (by linarith))
      have : (q : ℝ) * h ≤ ((q : ℝ) + 1) * h := by nlinarith
      linarith
    have c1 : c 1 = j := edge _ _ _ _ _ hh1 hj k6
    have c2 : c 2 = k := edge _ _ _ _ _ hh2 hk k7
    congr 2
    funext a
    fin_cases a
    · exact c0
    · exact c1
    · exact c2

/-- **C115 fails.** A single cell over the height `[0, 4]`: the published height is the upper limit 4, not the centre 2; and the published angle is π. -/
theorem C115_false : (Geom.cyl (CylGeom.new (fun _ => 1) (finLimits (fun _ => (0 : ℝ)) fun _ => 4))).positions 2 = [fin 4] ∧
    (Geom.cyl (CylGeom.new (fun _ => 1) (finLimits (fun _ => (0 : ℝ)) fun _ => 4))).positions 1 = [fin Real.pi] := by
  obtain ⟨r, θ, z, _, h1, h2, h3, h4, _⟩ := C115_lookup_partial (fun _ => 1) (fun _ => by norm_num) (fun _ => 0) (fun _ => 4) (fun _ => by norm_num)
  rw [h1, h2]
  constructor
  · change [fin (z 0)] = _
    rw [h4]
    norm_num
  · change [fin (θ 0)] = _
    rw [h3]
    congr 2
    push_cast
    ring

/-! ### C116: the printed summary of a scalar grid -/

/-- The numbers in the cells of a grid, cell by cell; NaN cells are left out. -/
def cellNumbers (g : Grid K) : List (F K) := ((indices 3 g.geom.cells).map g.st.data.get).filter fun v => !v.isNaN

/-- `m` is the least of the numbers. -/
def IsLeast' (m : F K) (xs : List K) : Prop := ∃ a ∈ xs, m = fin a ∧ ∀ x ∈ xs, a ≤ x

/-- `m` is the greatest of the numbers. -/
def IsGreatest' (m : F K) (xs : List K) : Prop := ∃ a ∈ xs, m = fin a ∧ ∀ x ∈ xs, x ≤ a

theorem skip_extremes [ExactArith K] (l : List (F K)) (xs : List K) (h : l.filter (fun v => !v.isNaN) = xs.map fin) (hne : xs ≠ []) :
    IsLeast' (minSkipNaN l) xs ∧ IsGreatest' (maxSkipNaN l) xs := by
  have mem : ∀ x : F K, x ∈ l ∧ x ≠ nan ↔ x ∈ xs.map fin := by
    intro x
    rw [← h, List.mem_filter]
    cases x <;> simp [F.isNaN]
  obtain ⟨y, hy⟩ := List.exists_mem_of_ne_nil xs hne
  have hex : ∃ x ∈ l, x ≠ nan := by
    obtain ⟨h1, h2⟩ := (mem (fin y)).2 (List.mem_map.2 ⟨y, hy, rfl⟩)
    exact ⟨_, h1, h2⟩
  constructor
  · obtain ⟨h1, h2, h3⟩ := skipNaN_min l hex
    obtain ⟨a, ha, e⟩ := List.mem_map.1 ((mem _).1 ⟨h1, h2⟩)
    refine ⟨a, ha, e.symm, fun x hx => ?_⟩
    obtain ⟨q1, q2⟩ := (mem (fin x)).2 (List.mem_map.2 ⟨x, hx, rfl⟩)
    have := h3 _ q1 q2
    rw [← e, F.le_fin] at this
    exact this
  · obtain ⟨h1, h2, h3⟩ := skipNaN_max l hex
    obtain ⟨a, ha, e⟩ := List.mem_map.1 ((mem _).1 ⟨h1, h2⟩)
    refine ⟨a, ha, e.symm, fun x hx => ?_⟩
    obtain ⟨q1, q2⟩ := (mem (fin x)).2 (List.mem_map.2 ⟨x, hx, rfl⟩)
    have := h3 _ q1 q2
    rw [← e, F.le_fin] at this
    exact this

/-- **C116, cells and limits.** A new grid shows the numbers of cells and the limits it was made for: a Cartesian grid the box, a cylindrical
grid the radius (half of the longer side of the base), the full angle and the height. -/
theorem C116_limits [LawfulArith K] [ExactArith K] (cells : CellId) (lo hi : Fin 3 → K) (h : ∀ a, lo a ≤ hi a) :
    (Grid.newCart cells (finLimits lo hi)).summary.cells = cells ∧
    (∀ a, (Grid.newCart cells (finLimits lo hi)).summary.limits a = (fin (lo a), fin (hi a))) ∧
    (Grid.newCyl cells (finLimits lo hi)).summary.cells = cells ∧
    (Grid.newCyl cells (finLimits lo hi)).summary.limits 0 = (fin 0, fin (max ((hi 0 - lo 0) / 2) ((hi 1 - lo 1) / 2))) ∧
    (Grid.newCyl cells (finLimits lo hi)).summary.limits 1 = (fin (-Arith.piK), fin Arith.piK) ∧
    (Grid.newCyl cells (finLimits lo hi)).summary.limits 2 = (fin (lo 2), fin (hi 2)) := by
  refine ⟨rfl, fun _ => rfl, rfl, ?_, rfl, rfl⟩
  rw [← outerRadius_exact lo hi h]
  rfl

example : (Grid.newCyl (fun _ => 3) (finLimits (fun _ => (0 : ℝ)) ![4, 2, 5])).summary.limits 0 = (fin 0, fin 2) := by
  have := (C116_limits (fun _ => 3) (fun _ => (0 : ℝ)) ![4, 2, 5] (fun a => by fin_cases a <;> norm_num)).2.2.2.1
  rw [this]
  norm_num

/-- **C116.** The printed summary of a scalar grid: its cells and limits, and mean, standard deviation, minimum and maximum over the cells that hold a number;
NaN if no cell does. Exact arithmetic; cells hold numbers or NaN. -/
theorem C116_summary [LawfulArith K] [ExactArith K] (g : Grid K) (hg : g.Shaped) (xs : List K) (hx : cellNumbers g = xs.map fin) :
    g.summary.cells = g.geom.cells ∧ g.summary.limits = g.geom.limits ∧
      (xs = [] → g.summary.mean = F.nan ∧ g.summary.std = F.nan ∧ g.summary.min = F.nan ∧ g.summary.max = F.nan) ∧
      (xs ≠ [] → g.summary.mean = fin (mean xs) ∧ (∃ s, g.summary.std = fin s ∧ 0 ≤ s ∧ s * s = meanSqDev xs) ∧
        IsLeast' g.summary.min xs ∧ IsGreatest' g.summary.max xs) := by
  have hl : (flatten g.st.data).filter (fun v => !v.isNaN) = xs.map fin := by
    unfold flatten
    rw [hg.1]
    exact hx
  refine ⟨rfl, rfl, fun h => ?_, fun h => ?_⟩
  · have hall : ∀ v ∈ flatten g.st.data, v = F.nan := by
      intro v hv
      rw [h, List.map_nil, List.filter_eq_nil_iff] at hl
      have := hl v hv
      cases v <;> simp_all [F.isNaN]
    obtain ⟨h1, h2⟩ := C56_none _ hall
    refine ⟨h1, h2, ?_, ?_⟩
    · change minSkipNaN (flatten g.st.data) = _
      unfold minSkipNaN
      rw [hl, h]
      rfl
    · change maxSkipNaN (flatten g.st.data) = _
      unfold maxSkipNaN
      rw [hl, h]
      rfl
  · obtain ⟨h1, s, h2, h3, h4⟩ := C56_value _ xs hl h
    refine ⟨h1, ⟨s, h2, h3, ?_⟩, skip_extremes _ xs hl h⟩
    rw [h4]
    unfold varOf meanSqDev meanOf mean
    congr 2
    exact List.map_congr_left fun x _ => by ring

/-! ### C117: the printed summary of a vector grid -/

theorem foldl_nan {α : Type} (l : List α) (f : α → F K) : l.foldl (fun s x => s + f x) (F.nan : F K) = F.nan := by
  induction l with
  | nil => rfl
  | cons x l ih => rw [List.foldl_cons, nan_add, ih]

theorem sum_nan (l : List (F K)) (h : F.nan ∈ l) : F.sum l = F.nan := by
  unfold F.sum
  obtain ⟨a, b, rfl⟩ := List.append_of_mem h
  rw [List.foldl_append, List.foldl_cons, add_nan, foldl_nan b fun x => x]

theorem ndVar_nan (l : List (F K)) (s : ℕ × F K × F K) (h : (s.2.1 = F.nan ∧ s.2.2 = F.nan) ∨ F.nan ∈ l) : (l.foldl ndVarStep s).2.2 = F.nan := by
  induction l generalizing s with
  | nil =>
    rcases h with h | h
    · exact h.2
    · cases h
  | cons x l ih =>
    rw [List.foldl_cons]
    refine ih _ ?_
    rcases h with h | h
    · left
      unfold ndVarStep
      simp [h.1, h.2]
    · rcases List.mem_cons.1 h with h | h
      · left
        unfold ndVarStep
        simp [← h]
      · exact Or.inr h

/-- The state of the variance loop after the numbers `xs`: mean and sum of squared deviations. -/
theorem ndVar_exact [ExactArith K] (xs : List K) (n : ℕ) (m s : K) (S Q : K) (hS : (n : K) * m = S) (hQ : s = Q - n * m * m) :
    ∃ m' s' : K, (xs.map fin).foldl ndVarStep (n, fin m, fin s) = (n + xs.length, fin m', fin s') ∧ ((n + xs.length : ℕ) : K) * m' = S + xs.sum ∧
      s' = Q + (xs.map fun x => x * x).sum - ((n + xs.length : ℕ) : K) * m' * m' := by
  induction xs generalizing n m s S Q with
  | nil => exact ⟨m, s, rfl, by simpa using hS, by simpa using hQ⟩
  | cons x xs ih =>
    have hn : ((n : K) + 1) ≠ 0 := by positivity
    have hstep : ndVarStep (n, fin m, fin s) (fin x) = (n + 1, fin (m + (x - m) / (n + 1)), fin ((x - (m + (x - m) / (n + 1))) * (x - m) + s)) := by
      unfold ndVarStep
      dsimp only
      rw [esub, eofNat, Nat.cast_add, Nat.cast_one, ediv _ hn, eadd, esub, emul, eadd]
    have hm : ((n + 1 : ℕ) : K) * (m + (x - m) / (n + 1)) = S + x := by
      rw [← hS]; push_cast; field_simp; ring
    obtain ⟨m', s', h1, h2, h3⟩ := ih (n + 1) (m + (x - m) / (n + 1)) ((x - (m + (x - m) / (n + 1))) * (x - m) + s) (S + x) (Q + x * x) hm (by
      rw [hQ]
      have h2 : ((n : K) + 1) * (m + (x - m) / (n + 1)) = n * m + x := by field_simp; ring
      set w := m + (x - m) / (n + 1)
      push_cast
      have h3 : x = (n + 1) * w - n * m := by rw [h2]; ring
      rw [h3]
      ring)
    refine ⟨m', s', ?_, ?_, ?_⟩
    · rw [List.map_cons, List.foldl_cons, hstep, h1, List.length_cons]
      congr 1
      omega
    · rw [List.length_cons, List.sum_cons, show n + (xs.length + 1) = n + 1 + xs.length by omega, h2]
      ring
    · rw [List.length_cons, List.map_cons, List.sum_cons, show n + (xs.length + 1) = n + 1 + xs.length by omega, h3]
      ring

/-- The sample variance by the recurrence of ndarray. -/
theorem ndStd_exact [LawfulArith K] [ExactArith K] (xs : List K) (h : 2 ≤ xs.length) :
    ∃ s, ndStd (xs.map fin) = .ok (fin s) ∧ 0 ≤ s ∧ s * s = sampleVar xs := by
  have hne : xs ≠ [] := by rintro rfl; simp at h
  obtain ⟨m, s, h1, h2, h3⟩ := ndVar_exact xs 0 0 0 0 0 (by simp) (by simp)
  simp only [zero_add] at h1 h2 h3
  have hlen : (xs.length : K) ≠ 0 := Nat.cast_ne_zero.2 (by omega)
  have hl2 : (2 : K) ≤ xs.length := by exact_mod_cast h
  have hm : m = mean xs := by
    unfold mean
    rw [eq_div_iff hlen, mul_comm]
    exact h2
  have hs : s = (xs.map fun x => (x - mean xs) ^ 2).sum := by
    have e : (xs.map fun x => (x - mean xs) ^ 2) = xs.map fun x => x * x + (-2 * mean xs) * x + mean xs * mean xs :=
      List.map_congr_left fun x _ => by ring
    have key : ∀ (l : List K) (c : K), (l.map fun x => x * x + (-2 * c) * x + c * c).sum = (l.map fun x => x * x).sum + (-2 * c) * l.sum + l.length * (c * c) := by
      intro l c
      induction l with
      | nil => simp
      | cons x l ih =>
        simp only [List.map_cons, List.sum_cons, List.length_cons, ih]
        push_cast
        ring
    rw [e, key, h3, ← hm, ← h2]
    ring
  have hnn : 0 ≤ s / ((xs.length : K) - 1) := by
    refine div_nonneg ?_ (by linarith)
    rw [hs]
    apply List.sum_nonneg
    intro y hy
    obtain ⟨x, _, rfl⟩ := List.mem_map.1 hy
    positivity
  obtain ⟨T, t1, t2, t3⟩ := sqrt_root (K := K) hnn
  refine ⟨T, ?_, t2, ?_⟩
  · unfold ndStd
    rw [if_neg (by simpa using hne), F.zero_def, h1]
    dsimp only
    rw [List.length_map, eofNat, F.one_def, esub, ediv _ (by linarith), t1]
  · rw [t3, hs]
    unfold sampleVar
    rfl

/-- **C117, the part that holds.** If every cell of a vector grid holds a number and there are two cells or more, the printed summary gives mean, sample standard
deviation, minimum and maximum of the x components. Missing: the other components, and grids with empty cells (`C117_false`). -/
theorem C117_summary_partial [LawfulArith K] [ExactArith K] (g : VecGrid K) (hg : (g.comp 0).Shaped) (xs : List K)
    (hx : (indices 3 (g.comp 0).geom.cells).map (g.comp 0).st.data.get = xs.map fin) (h2 : 2 ≤ xs.length) :
    ∃ s, g.summary = .ok s ∧ s.cells = (g.comp 0).geom.cells ∧ s.limits = (g.comp 0).geom.limits ∧ s.mean = fin (mean xs) ∧
      (∃ t, s.std = fin t ∧ 0 ≤ t ∧ t * t = sampleVar xs) ∧ IsLeast' s.min xs ∧ IsGreatest' s.max xs := by
  have hne : xs ≠ [] := by rintro rfl; simp at h2
  have hl : flatten (g.comp 0).st.data = xs.map fin := by
    unfold flatten
    rw [hg.1]
    exact hx
  have hlen : (xs.length : K) ≠ 0 := Nat.cast_ne_zero.2 (by omega)
  obtain ⟨t, t1, t2, t3⟩ := ndStd_exact xs h2
  have hm : ndMean (xs.map fin : List (F K)) = some (fin (mean xs)) := by
    unfold ndMean
    rw [if_neg (by simpa using hne), sum_fin, List.length_map, eofNat, ediv _ hlen]
    rfl
  have hf : (xs.map fin : List (F K)).filter (fun v => !v.isNaN) = xs.map fin := by
    rw [List.filter_eq_self]
    intro v hv
    obtain ⟨x, _, rfl⟩ := List.mem_map.1 hv
    rfl
  obtain ⟨e1, e2⟩ := skip_extremes _ xs hf hne
  refine ⟨⟨_, _, fin (mean xs), fin t, minSkipNaN (xs.map fin), maxSkipNaN (xs.map fin)⟩, ?_, rfl, rfl, rfl, ⟨t, rfl, t2, t3⟩, e1, e2⟩
  unfold VecGrid.summary
  dsimp only
  rw [hl, hm, t1]
  rfl

/-- One empty cell makes the printed mean and deviation of a vector grid NaN. -/
theorem C117_empty (g : VecGrid K) (hg : (g.comp 0).Shaped) (c : CellId) (hc : InB (g.comp 0).geom.cells c) (h : (g.comp 0).st.data.get c = F.nan) :
    ∃ s, g.summary = .ok s ∧ s.mean = F.nan ∧ s.std = F.nan := by
  have hmem : F.nan ∈ flatten (g.comp 0).st.data := List.mem_map.2 ⟨c, (mem_indices _ _).2 (by rw [hg.1]; exact hc), h⟩
  have hne : flatten (g.comp 0).st.data ≠ [] := List.ne_nil_of_mem hmem
  have e1 : ndMean (flatten (g.comp 0).st.data) = some F.nan := by
    unfold ndMean
    rw [if_neg hne, sum_nan _ hmem, nan_div]
  have e2 : ndStd (flatten (g.comp 0).st.data) = .ok F.nan := by
    unfold ndStd
    rw [if_neg hne, ndVar_nan _ _ (Or.inr hmem), nan_div]
    rfl
  refine ⟨⟨(g.comp 0).geom.cells, (g.comp 0).geom.limits, F.nan, F.nan, minSkipNaN (flatten (g.comp 0).st.data), maxSkipNaN (flatten (g.comp 0).st.data)⟩, ?_, rfl, rfl⟩
  unfold VecGrid.summary
  dsimp only
  rw [e1, e2]
  rfl

/-- **C117 fails.** The vector field of one particle with velocity `(3, 0, 4)` on a grid of eight cells: the cell of the particle holds the velocity, but the printed
mean and deviation are NaN. -/
theorem C117_false (p : Profile) (kind : Kind) : ∃ (d d' : Dm (Timestep ℝ)) (g : VecGrid ℝ) (s : Summary ℝ), Dm.new p kind demoFile 1 Timestep.default = .ok d ∧
    vectorfield p d (Grid.newCart (fun _ => 2) (finLimits (fun _ => 0) fun _ => 4)) Selector.default = .ok (d', g) ∧
    (g.comp 0).st.data.get (fun _ => 0) = fin 3 ∧ (g.comp 2).st.data.get (fun _ => 0) = fin 4 ∧
    g.summary = .ok s ∧ s.mean = F.nan ∧ s.std = F.nan := by
  obtain ⟨d, e, hinv, hf, hn, hw, hS⟩ := demo_manager p kind 1 (by norm_num) (by norm_num)
  have hc2 : CellsOk (fun _ => 2) := fun _ => by norm_num
  set grid : Grid ℝ := Grid.newCart (fun _ => 2) (finLimits (fun _ => 0) fun _ => 4) with hgrid
  have hready : Ready d Selector.default := ⟨hinv, hw, usable_default, by rw [hS]; simp⟩
  have hseen : d.seen Selector.default = [(fun _ => fin 0, ![fin 3, fin 0, fin 4])] := by
    unfold Dm.seen
    rw [hS, hf]
    change [((fun _ => fin (((0 : ℕ) : ℝ) / 2)), _)] = _
    simp
    rfl
  have hv : FiniteVel (d.seen Selector.default) := by
    rw [hseen]
    intro x hx a
    obtain rfl := List.mem_singleton.1 hx
    fin_cases a <;> exact ⟨_, rfl⟩
  have hcell : ∀ c, inCell p grid.geom (fun _ => fin (0 : ℝ)) c = true ↔ c = fun _ => 0 := by
    intro c
    rw [cart_inCell p _ hc2 _ _ (fun _ => by norm_num)]
    constructor
    · rintro ⟨x, hx, h⟩
      obtain rfl : (fun _ => (0 : ℝ)) = x := funext fun a => F.fin.inj (congrFun hx a)
      exact funext fun a => by rw [(h a).2.2]; norm_num
    · rintro rfl
      exact ⟨fun _ => 0, rfl, fun a => ⟨le_refl _, by norm_num, by norm_num⟩⟩
  have hfill : grid.Fillable p := fillable_cart p _ (isCart_new _ _ hc2)
  obtain ⟨d', g, r, e'⟩ := vector_cells p grid hfill (fun _ => ⟨rfl, rfl⟩) rfl d Selector.default hready hv
  obtain ⟨d'', g'', r', _, _, _, hsh⟩ := vectorfield_run p d hinv grid hfill Selector.default usable_default hw
  rw [r] at r'
  obtain ⟨rfl, rfl⟩ := Prod.mk.inj (Except.ok.inj r')
  have hval : ∀ a w, ![fin 3, fin 0, fin (4 : ℝ)] a = fin w → (g.comp a).st.data.get (fun _ => 0) = fin w := by
    intro a w hw
    obtain ⟨vals, v1, _, v3⟩ := e' a (fun _ => 0) (fun _ => by change 0 < 2; norm_num)
    have : vals = [w] := by
      have hvl : vals.map fin = [w].map fin := by
        rw [v1, hseen]
        unfold cellVelocities
        rw [List.filter_cons_of_pos (by exact (hcell _).2 rfl)]
        change [![fin 3, fin 0, fin (4 : ℝ)] a] = _
        rw [hw]
        rfl
      exact List.map_injective_iff.2 (fun x y h => F.fin.inj h) hvl
    rw [v3, this, if_neg (by simp)]
    simp
  have hempty : (g.comp 0).st.data.get (fun _ => 1) = F.nan := by
    obtain ⟨vals, v1, _, v3⟩ := e' 0 (fun _ => 1) (fun _ => by change 1 < 2; norm_num)
    have : vals = [] := by
      rw [hseen] at v1
      unfold cellVelocities at v1
      rw [List.filter_cons_of_neg (by rw [hcell]; intro h; exact absurd (congrFun h 0) (by norm_num))] at v1
      exact List.map_eq_nil_iff.1 v1
    rw [v3, if_pos this]
  obtain ⟨s, s1, s2, s3⟩ := C117_empty g (hsh 0).2.1 (fun _ => 1) (by rw [(hsh 0).1]; exact fun _ => by change 1 < 2; norm_num) hempty
  exact ⟨d, d', g, s, e, r, hval 0 3 rfl, hval 2 4 rfl, s1, s2, s3⟩

/-- Witness for C116: a grid of two cells, one of them empty. -/
noncomputable def halfFull : Grid ℝ :=
  { Grid.newCart ![2, 1, 1] (finLimits (fun _ => 0) fun _ => 4) with
    st := ⟨⟨![2, 1, 1], fun c => if c 0 = 0 then fin 5 else F.nan⟩, ⟨![2, 1, 1], fun c => if c 0 = 0 then fin 1 else fin 0⟩⟩ }

example : halfFull.Shaped ∧ cellNumbers halfFull = [5].map fin ∧ halfFull.summary.mean = fin 5 ∧ halfFull.summary.max = fin 5 := by
  have h1 : halfFull.Shaped := ⟨rfl, rfl⟩
  have h2 : cellNumbers halfFull = [5].map fin := by
    unfold cellNumbers
    have : indices 3 halfFull.geom.cells = [![0, 0, 0], ![1, 0, 0]] := by
      change indices 3 ![2, 1, 1] = _
      decide
    rw [this]
    simp [halfFull, F.isNaN]
  obtain ⟨_, _, _, h⟩ := C116_summary halfFull h1 [5] h2
  obtain ⟨k1, _, _, a, ha, k2, _⟩ := h (by simp)
  obtain rfl := List.mem_singleton.1 ha
  refine ⟨h1, h2, ?_, k2⟩
  rw [k1]
  simp [mean]

/-- Witness for C117: two cells with the x components 1 and 3. -/
noncomputable def twoVectors : VecGrid ℝ :=
  VecGrid.new { Grid.newCart ![2, 1, 1] (finLimits (fun _ => 0) fun _ => 4) with
    st := ⟨⟨![2, 1, 1], fun c => if c 0 = 0 then fin 1 else fin 3⟩, ⟨![2, 1, 1], fun _ => fin 1⟩⟩ }

example : (twoVectors.comp 0).Shaped ∧ (indices 3 (twoVectors.comp 0).geom.cells).map (twoVectors.comp 0).st.data.get = [1, 3].map fin ∧
    ∃ s, twoVectors.summary = .ok s ∧ s.mean = fin 2 := by
  have h1 : (twoVectors.comp 0).Shaped := ⟨rfl, rfl⟩
  have h2 : (indices 3 (twoVectors.comp 0).geom.cells).map (twoVectors.comp 0).st.data.get = [1, 3].map fin := by
    have : indices 3 (twoVectors.comp 0).geom.cells = [![0, 0, 0], ![1, 0, 0]] := by
      change indices 3 ![2, 1, 1] = _
      decide
    rw [this]
    simp [twoVectors, VecGrid.new]
  obtain ⟨s, e, _, _, k, _⟩ := C117_summary_partial twoVectors h1 [1, 3] h2 (by simp)
  refine ⟨h1, h2, s, e, ?_⟩
  rw [k]
  simp [mean]
  norm_num

/-! ### C118: `cell_id` and `is_inside` from Python -/

/-- `is_inside` answers for three coordinates and raises for fewer; further ones are ignored. -/
theorem C118_inside (g : Grid K) (l : List (F K)) :
    (l.length < 3 → g.pyInside l = .error .index) ∧ ∀ x y z rest, l = x :: y :: z :: rest → g.pyInside l = .ok (g.isInside ![x, y, z]) := by
  refine ⟨fun h => ?_, ?_⟩
  · match l, h with
    | [], _ => rfl
    | [x], _ => rfl
    | [x, y], _ => rfl
  · rintro x y z rest rfl
    rfl

/-- **C118, the part that holds.** On a Cartesian grid `cell_id` returns a cell of the grid for every position inside and raises for every other. Missing: on a
cylindrical grid it answers for positions outside (`C118_false`). -/
theorem C118_cellId_partial [LawfulArith K] (p : Profile) (cells : CellId) (hc : CellsOk cells) (lim : Limits K) (x y z : F K) :
    let g := Grid.newCart cells lim
    (g.pyInside [x, y, z] = .ok true → ∃ c, g.pyCellId p x y z = .ok c ∧ InB cells c ∧ inCell p g.geom ![x, y, z] c = true) ∧
    (g.pyInside [x, y, z] = .ok false → g.pyCellId p x y z = .error .unwrap) := by
  intro g
  have hi : g.pyInside [x, y, z] = .ok (g.isInside ![x, y, z]) := rfl
  rw [hi]
  have hfill : g.Fillable p := fillable_cart p _ (isCart_new _ _ hc)
  constructor
  · intro h
    have h := Except.ok.inj h
    obtain ⟨c, h1, h2⟩ := hfill.2.isSome h
    refine ⟨c, ?_, h2, ?_⟩
    · unfold Grid.pyCellId
      have e : g.cellId p ![x, y, z] = .ok (some c) := by
        change g.geom.cellId p ![x, y, z] = _
        have e1 : g.geom.cellId p ![x, y, z] = .ok (if (CartGeom.new cells lim).isInside ![x, y, z] then
          some (fun a => CartGeom.axisVal (lim a) (cells a) (![x, y, z] a)) else none) := CartGeom.cellId_eq p _ hc _
        unfold Geom.lookup at h1
        rw [e1] at h1 ⊢
        congr 1
      rw [e]
      rfl
    · unfold inCell
      rw [h1]
      change (g.isInside ![x, y, z] && _) = true
      rw [h]
      simp
  · intro h
    have h := Except.ok.inj h
    have e : g.cellId p ![x, y, z] = .ok none := by
      have e1 := CartGeom.cellId_eq p (CartGeom.new cells lim) hc ![x, y, z]
      change (CartGeom.new cells lim).cellId p ![x, y, z] = _
      rw [e1, if_neg]
      change ¬ (g.isInside ![x, y, z] = true)
      rw [h]
      simp
    unfold Grid.pyCellId
    rw [e]
    rfl

/-- **C118 fails** on cylindrical grids: a position above the cylinder is not inside, but `cell_id` returns a cell. -/
theorem C118_false (p : Profile) : ∃ c, (Grid.newCyl (fun _ => 1) (finLimits (fun _ => (0 : ℝ)) fun _ => 4)).pyInside [fin 2, fin 2, fin 9] = .ok false ∧
    (Grid.newCyl (fun _ => 1) (finLimits (fun _ => (0 : ℝ)) fun _ => 4)).pyCellId p (fin 2) (fin 2) (fin 9) = .ok c := by
  have hc : CellsOk (fun _ => 1) := fun _ => by norm_num
  have hcen : ∀ a : Fin 3, (CylGeom.new (fun _ => 1) (finLimits (fun _ => (0 : ℝ)) fun _ => 4)).center a = fin 2 := by
    intro a
    have : CylGeom.mid ((fin 0, fin 4) : F ℝ × F ℝ) = fin 2 := by
      unfold CylGeom.mid
      dsimp only
      rw [eadd, eofNat, ediv _ (by norm_num)]
      norm_num
    fin_cases a <;> exact this
  have hr : (CylGeom.new (fun _ => 1) (finLimits (fun _ => (0 : ℝ)) fun _ => 4)).toCylindrical ![fin 2, fin 2, fin 9] 0 = fin 0 := by
    unfold CylGeom.toCylindrical
    rw [hcen, hcen]
    change ((fin 2 - fin 2) * (fin 2 - fin 2) + (fin 2 - fin 2) * (fin 2 - fin 2) : F ℝ).sqrt = fin 0
    rw [esub, emul, eadd]
    obtain ⟨T, t1, t2, t3⟩ := sqrt_root (K := ℝ) (x := (2 - 2) * (2 - 2) + (2 - 2) * (2 - 2)) (by norm_num)
    rw [t1]
    congr 1
    nlinarith
  obtain ⟨R, r, _, hRp, hrad, hrp, h0, hn, hmono, _⟩ := C19_shells (fun _ => 1) (fun _ => (0 : ℝ)) (fun _ => 4) (fun _ => by norm_num) (by norm_num)
  obtain ⟨c, s, h1, _⟩ := cyl_cellId_core (K := ℝ) (fun _ => 1) hc (finLimits (fun _ => 0) fun _ => 4) (lo := 0) (hi := 4) (d := 4 - 0) rfl (esub _ _) (by norm_num)
    (by
      have : CylGeom.outerRadius (finLimits (fun _ => (0 : ℝ)) fun _ => 4) = fin R := hrad
      rw [this]; intro h; cases h) ![fin 2, fin 2, fin 9] (zv := 9) rfl
    ⟨(fin (r 0), fin (r 1)), by rw [hrp]; rfl, by rw [hr, F.le_fin]; rw [hn]; exact hRp.le⟩
  refine ⟨c, ?_, ?_⟩
  · change Except.ok ((CylGeom.new (fun _ => 1) (finLimits (fun _ => (0 : ℝ)) fun _ => 4)).isInside ![fin 2, fin 2, fin 9]) = _
    congr 1
    unfold CylGeom.isInside
    dsimp only
    have e2 : (CylGeom.new (fun _ => 1) (finLimits (fun _ => (0 : ℝ)) fun _ => 4)).toCylindrical ![fin 2, fin 2, fin 9] 2 = fin 9 := rfl
    have l2 : (CylGeom.new (fun _ => 1) (finLimits (fun _ => (0 : ℝ)) fun _ => 4)).limits 2 = (fin 0, fin 4) := rfl
    rw [e2, l2]
    have : ¬ ((fin 0 : F ℝ) ≤ fin 9 ∧ (fin 9 : F ℝ) ≤ fin 4) := by
      rw [F.le_fin, F.le_fin]
      norm_num
    rw [Bool.and_eq_false_iff]
    exact Or.inr (decide_eq_false this)
  · unfold Grid.pyCellId
    have e : (Grid.newCyl (fun _ => 1) (finLimits (fun _ => (0 : ℝ)) fun _ => 4)).cellId p ![fin 2, fin 2, fin 9] = .ok (some c) := h1
    rw [e]
    rfl

/-- Witness for C118: a position inside and one outside the unit cube. -/
example (p : Profile) : (Grid.newCart (fun _ => 3) (finLimits (fun _ => (0 : ℝ)) fun _ => 1)).pyInside [fin 0, fin 1, fin 1] = .ok true ∧
    (Grid.newCart (fun _ => 3) (finLimits (fun _ => (0 : ℝ)) fun _ => 1)).pyInside [fin 0, fin 1, F.nan] = .ok false := by
  constructor
  · change Except.ok ((CartGeom.new (fun _ => 3) (finLimits (fun _ => (0 : ℝ)) fun _ => 1)).isInside ![fin 0, fin 1, fin 1]) = _
    congr 1
    rw [CartGeom.isInside_iff]
    intro a
    fin_cases a <;> simp [CartGeom.new, finLimits]
  · change Except.ok ((CartGeom.new (fun _ => 3) (finLimits (fun _ => (0 : ℝ)) fun _ => 1)).isInside ![fin 0, fin 1, F.nan]) = _
    congr 1

end Up4
