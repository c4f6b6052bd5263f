import Verif.Props.Accuracy
import Verif.Props.CartLookup

set_option linter.unusedSectionVars false

/-!
# C120: the cell lookup in rounded arithmetic

Where a position is looked up if every operation rounds: in the right cell, unless it lies within rounding of an edge.
-/

namespace Up4
open F

variable {K : Type} [Field K] [LinearOrder K] [IsStrictOrderedRing K] [FloorRing K] [Arith K]

/-- The width of the cells of an axis as the lookup divides it: `cells - 1` intervals (one for a single cell). -/
def cellWidth (lo hi : K) (n : ℕ) : K := (hi - lo) / ((max (n - 1) 1 : ℕ) : K)

/-- The tolerance of the lookup: `2^-50` of the extent of the axis. -/
def slack (lo hi : K) : K := (hi - lo) / 2 ^ 50

/-- The position lies inside the box and in the cell, at least the tolerance away from its faces. -/
def SurelyIn (lo hi : Fin 3 → K) (cells : CellId) (x : Fin 3 → K) (c : CellId) : Prop := ∀ a, lo a ≤ x a ∧ x a ≤ hi a ∧
  lo a + c a * cellWidth (lo a) (hi a) (cells a) + slack (lo a) (hi a) ≤ x a ∧
  x a < lo a + (c a + 1) * cellWidth (lo a) (hi a) (cells a) - slack (lo a) (hi a)

/-- The position lies inside the box, and in the cell or at most the tolerance beyond its faces. -/
def MaybeIn (lo hi : Fin 3 → K) (cells : CellId) (x : Fin 3 → K) (c : CellId) : Prop := ∀ a, lo a ≤ x a ∧ x a ≤ hi a ∧
  lo a + c a * cellWidth (lo a) (hi a) (cells a) - slack (lo a) (hi a) ≤ x a ∧
  x a < lo a + (c a + 1) * cellWidth (lo a) (hi a) (cells a) + slack (lo a) (hi a)

/-- The quotient of two numbers that are known up to a relative error. -/
theorem quotient_near {u a b X D : K} (hu : 0 ≤ u) (hu1 : u ≤ 1 / 16) (hX : 0 ≤ X) (hXD : X ≤ D) (hD : 0 < D) (ha : |a - X| ≤ u * X) (hb : |b - D| ≤ u * D) :
    0 < b ∧ 0 ≤ a ∧ |a / b - X / D| ≤ 3 * u := by
  rw [abs_le] at ha hb
  have hb1 : 15 / 16 * D ≤ b := by nlinarith
  have hb0 : 0 < b := by linarith
  have ha0 : 0 ≤ a := by nlinarith
  refine ⟨hb0, ha0, ?_⟩
  have e : a / b - X / D = (a * D - X * b) / (b * D) := by field_simp
  have hnum : |a * D - X * b| ≤ 2 * u * (X * D) := by
    rw [abs_le]
    have h1 : (a - X) * D ≤ u * X * D := mul_le_mul_of_nonneg_right ha.2 hD.le
    have h2 : -(u * X) * D ≤ (a - X) * D := mul_le_mul_of_nonneg_right ha.1 hD.le
    have h3 : X * (b - D) ≤ X * (u * D) := mul_le_mul_of_nonneg_left hb.2 hX
    have h4 : X * -(u * D) ≤ X * (b - D) := mul_le_mul_of_nonneg_left hb.1 hX
    constructor <;> linarith
  rw [e, abs_div, abs_of_pos (mul_pos hb0 hD), div_le_iff₀ (mul_pos hb0 hD)]
  refine hnum.trans ?_
  have h5 : X * D ≤ D * D := mul_le_mul_of_nonneg_right hXD hD.le
  have h6 : 15 / 16 * D * D ≤ b * D := mul_le_mul_of_nonneg_right hb1 hD.le
  have h7 : 2 * (X * D) ≤ 3 * (b * D) := by
    have : 0 ≤ D * D := mul_nonneg hD.le hD.le
    linarith
  have h8 := mul_le_mul_of_nonneg_left h7 hu
  linarith

/-- The computed index of one axis. -/
theorem axis_near [LawfulArith K] [RoundedArith K] {lo hi x : K} (hlo : IsDouble lo) (hhi : IsDouble hi) (hx : IsDouble x) (hlt : lo < hi) (h1 : lo ≤ x) (h2 : x ≤ hi)
    (hl : |lo| ≤ 2 ^ 1022) (hh : |hi| ≤ 2 ^ 1022) {n : ℕ} (hn : 1 ≤ n) (hm : n ≤ 2 ^ 53) :
    let i := CartGeom.axisVal (fin lo, fin hi) n (fin x)
    lo + i * cellWidth lo hi n - slack lo hi ≤ x ∧ x < lo + (i + 1) * cellWidth lo hi n + slack lo hi := by
  intro i
  have hu := roundoff_pos (K := K)
  have hu1 := roundoff_le (K := K)
  have ht := tiny_pos (K := K)
  have hD : 0 < hi - lo := sub_pos.2 hlt
  have hs : 0 < slack lo hi := by unfold slack; positivity
  have hi_lt : i < n := CartGeom.axisVal_lt _ hn hm (by simpa using h1) (by simpa using h2)
  rcases Nat.lt_or_ge 1 n with hn2 | hn1
  swap
  · have h0 : i = 0 := by omega
    have hw : cellWidth lo hi n = hi - lo := by
      unfold cellWidth
      rw [show max (n - 1) 1 = 1 by omega, Nat.cast_one, div_one]
    rw [h0, hw]
    constructor <;> push_cast <;> linarith
  -- the rounded differences
  have hneg : IsDouble (-lo) := by
    unfold IsDouble
    have := hlo
    unfold IsDouble at this
    rw [LawfulArith.rnd_neg, this]; rfl
  have hbig : ∀ z : K, lo ≤ z → z ≤ hi → |z - lo| ≤ huge K := by
    intro z hz1 hz2
    rw [abs_of_nonneg (by linarith)]
    have e : huge K = 2 ^ 1022 + 2 ^ 1022 := by unfold huge; rw [← two_mul, ← pow_succ']
    rw [e]
    have := neg_abs_le lo
    have := le_abs_self hi
    linarith
  obtain ⟨a, ha⟩ := RoundedArith.rnd_finite _ (hbig x h1 h2)
  obtain ⟨b, hb⟩ := RoundedArith.rnd_finite _ (hbig hi hlt.le le_rfl)
  have ha1 : |a - (x - lo)| ≤ roundoff K * (x - lo) := by
    have := RoundedArith.add_err x (-lo) a hx hneg (by rw [← sub_eq_add_neg]; exact ha)
    rw [← sub_eq_add_neg, abs_of_nonneg (sub_nonneg.2 h1)] at this
    exact this
  have hb1 : |b - (hi - lo)| ≤ roundoff K * (hi - lo) := by
    have := RoundedArith.add_err hi (-lo) b hhi hneg (by rw [← sub_eq_add_neg]; exact hb)
    rw [← sub_eq_add_neg, abs_of_nonneg hD.le] at this
    exact this
  obtain ⟨hb0, ha0, hq⟩ := quotient_near hu.le hu1 (sub_nonneg.2 h1) (sub_le_sub_right h2 lo) hD ha1 hb1
  set t := (x - lo) / (hi - lo) with hT
  have ht0 : 0 ≤ t := div_nonneg (sub_nonneg.2 h1) hD.le
  have ht1 : t ≤ 1 := (div_le_one hD).2 (sub_le_sub_right h2 lo)
  have hab : |a / b| ≤ 2 := by
    have := abs_add_le (a / b - t) t
    rw [sub_add_cancel, abs_of_nonneg ht0] at this
    linarith
  have hhuge : (4 : K) * 2 ^ 53 ≤ huge K := by
    unfold huge
    rw [show (4 : K) = 2 ^ 2 by norm_num, ← pow_add]
    exact pow_le_pow_right₀ (by norm_num) (by norm_num)
  obtain ⟨q, hq'⟩ := RoundedArith.rnd_finite (a / b) (by
    have : (2 : K) ≤ 4 * 2 ^ 53 := by norm_num
    linarith)
  have htu : tiny K ≤ roundoff K / 16 := by
    unfold tiny roundoff
    rw [div_div]
    refine one_div_le_one_div_of_le (by positivity) ?_
    rw [show (2 : K) ^ 53 * 16 = 2 ^ 57 by norm_num]
    exact pow_le_pow_right₀ (by norm_num) (by norm_num)
  have hq1 : |q - t| ≤ 6 * roundoff K := by
    have h3 := RoundedArith.rnd_err _ q hq'
    have h4 := abs_add_le (q - a / b) (a / b - t)
    rw [sub_add_sub_cancel] at h4
    have h5 : roundoff K * |a / b| ≤ roundoff K * 2 := mul_le_mul_of_nonneg_left hab hu.le
    linarith
  -- scaling
  have hm1 : (1 : K) ≤ ((n - 1 : ℕ) : K) := by exact_mod_cast (by omega : 1 ≤ n - 1)
  have hm53 : ((n - 1 : ℕ) : K) ≤ 2 ^ 53 := by exact_mod_cast (by omega : n - 1 ≤ 2 ^ 53)
  set m : K := ((n - 1 : ℕ) : K) with hmd
  have hm0 : 0 < m := by linarith
  have hqb : |q| ≤ 2 := by
    have := abs_add_le (q - t) t
    rw [sub_add_cancel, abs_of_nonneg ht0] at this
    linarith
  obtain ⟨y, hy⟩ := RoundedArith.rnd_finite (q * m) (by
    rw [abs_mul, abs_of_pos hm0]
    have : |q| * m ≤ 2 * 2 ^ 53 := mul_le_mul hqb hm53 hm0.le (by norm_num)
    linarith)
  have hyt : |y - t * m| ≤ 8 * roundoff K * m := by
    have h3 := RoundedArith.rnd_err _ y hy
    have hqb' : |q| ≤ 1 + 6 * roundoff K := by
      have := abs_add_le (q - t) t
      rw [sub_add_cancel, abs_of_nonneg ht0] at this
      linarith
    have h4 := abs_add_le (y - q * m) (q * m - t * m)
    rw [sub_add_sub_cancel, ← sub_mul, abs_mul (q - t), abs_of_pos hm0] at h4
    rw [abs_mul, abs_of_pos hm0] at h3
    have h5 : |q - t| * m ≤ 6 * roundoff K * m := mul_le_mul_of_nonneg_right hq1 hm0.le
    have h6 : roundoff K * (|q| * m) ≤ roundoff K * (22 / 16 * m) :=
      mul_le_mul_of_nonneg_left (mul_le_mul_of_nonneg_right (by linarith) hm0.le) hu.le
    have h7 : 0 ≤ roundoff K * m := by positivity
    have h8 : roundoff K * 1 ≤ roundoff K * m := mul_le_mul_of_nonneg_left hm1 hu.le
    linarith
  have hiy : i = ⌊y⌋₊ := by
    have e : i = min ⌊y⌋₊ usizeMax := by
      change (((fin x : F K) - fin lo) / (fin hi - fin lo) * F.ofNat (n - 1)).toUsize = _
      rw [sub_fin, sub_fin, ha, hb, div_fin_ne _ hb0.ne', hq', ofNat_eq _ (by omega), mul_fin, hy]
      rfl
    rw [e] at hi_lt ⊢
    refine min_eq_left ?_
    by_contra hc
    rw [min_eq_right (by omega)] at hi_lt
    unfold usizeMax at hi_lt
    omega
  have hw : cellWidth lo hi n = (hi - lo) / m := by
    unfold cellWidth
    rw [show max (n - 1) 1 = n - 1 by omega]
  have hw0 : 0 < (hi - lo) / m := div_pos hD hm0
  have hsl : slack lo hi = 8 * roundoff K * m * ((hi - lo) / m) := by
    unfold slack roundoff
    rw [mul_assoc, mul_div_cancel₀ _ hm0.ne', show (2 : K) ^ 53 = 8 * 2 ^ 50 by norm_num]
    field_simp
  have hxt : x - lo = t * m * ((hi - lo) / m) := by
    rw [mul_assoc, mul_div_cancel₀ _ hm0.ne', hT, div_mul_cancel₀ _ hD.ne']
  rw [abs_le] at hyt
  rw [hw, hsl]
  generalize (hi - lo) / m = w at *
  constructor
  · rcases le_total 0 y with hy0 | hy0
    · have h3 : (i : K) ≤ y := by rw [hiy]; exact Nat.floor_le hy0
      have h4 : (i : K) * w ≤ (t * m + 8 * roundoff K * m) * w := mul_le_mul_of_nonneg_right (by linarith) hw0.le
      linarith
    · have h3 : i = 0 := by rw [hiy]; exact Nat.floor_of_nonpos hy0
      rw [h3, Nat.cast_zero, zero_mul]
      rw [hsl] at hs
      linarith
  · have h3 : y < i + 1 := by rw [hiy]; exact Nat.lt_floor_add_one y
    have h4 : (t * m - 8 * roundoff K * m) * w < (i + 1) * w := mul_lt_mul_of_pos_right (by linarith) hw0
    linarith

/-- The limits and a position of a grid, as doubles of moderate size. -/
structure PlainBox (lo hi x : Fin 3 → K) : Prop where
  lo_double : ∀ a, IsDouble (lo a)
  hi_double : ∀ a, IsDouble (hi a)
  x_double : ∀ a, IsDouble (x a)
  lo_lt : ∀ a, lo a < hi a
  lo_fits : ∀ a, |lo a| ≤ 2 ^ 1022
  hi_fits : ∀ a, |hi a| ≤ 2 ^ 1022

/-- **C120.** In rounded arithmetic a position is looked up in a cell that contains it up to `2^-50` of the extent of each axis. -/
theorem C120_cellId [LawfulArith K] [RoundedArith K] (p : Profile) (cells : CellId) (hc : CellsOk cells) (lo hi x : Fin 3 → K) (hb : PlainBox lo hi x)
    (hin : ∀ a, lo a ≤ x a ∧ x a ≤ hi a) :
    ∃ c, (CartGeom.new cells (finLimits lo hi)).cellId p (finPos x) = .ok (some c) ∧ InB cells c ∧ MaybeIn lo hi cells x c := by
  have hins : (CartGeom.new cells (finLimits lo hi)).isInside (finPos x) = true := by
    rw [CartGeom.isInside_iff]
    exact fun a => ⟨by simp [finPos], by simpa [CartGeom.new, finLimits, finPos] using (hin a).1, by simpa [CartGeom.new, finLimits, finPos] using (hin a).2⟩
  have e := CartGeom.cellId_eq p (CartGeom.new cells (finLimits lo hi)) hc (finPos x)
  rw [if_pos hins] at e
  exact ⟨_, e, CartGeom.cellId_inB p _ hc e, fun a => ⟨(hin a).1, (hin a).2,
    axis_near (hb.lo_double a) (hb.hi_double a) (hb.x_double a) (hb.lo_lt a) (hin a).1 (hin a).2 (hb.lo_fits a) (hb.hi_fits a) (hc a).1 (hc a).2⟩⟩

theorem cellWidth_pos {lo hi : K} (h : lo < hi) (n : ℕ) : 0 < cellWidth lo hi n :=
  div_pos (sub_pos.2 h) (by exact_mod_cast (by omega : 0 < max (n - 1) 1))

/-- A position that is safely in one cell is nowhere else. -/
theorem surely_maybe {lo hi x : Fin 3 → K} (hlt : ∀ a, lo a < hi a) {cells c c' : CellId} (h : SurelyIn lo hi cells x c) (h' : MaybeIn lo hi cells x c') : c' = c := by
  funext a
  obtain ⟨_, _, h1, h2⟩ := h a
  obtain ⟨_, _, h3, h4⟩ := h' a
  have hw := cellWidth_pos (hlt a) (cells a)
  generalize cellWidth (lo a) (hi a) (cells a) = w at *
  have k1 : (c' a : K) < c a + 1 := by
    by_contra hc
    have := mul_le_mul_of_nonneg_right (not_lt.1 hc) hw.le
    linarith
  have k2 : (c a : K) < c' a + 1 := by
    by_contra hc
    have := mul_le_mul_of_nonneg_right (not_lt.1 hc) hw.le
    linarith
  have k3 : c' a < c a + 1 := by exact_mod_cast k1
  have k4 : c a < c' a + 1 := by exact_mod_cast k2
  omega

/-- **C120, the right cell.** A position at least `2^-50` of the extent away from the faces of its cell is looked up in this cell. -/
theorem C120_right_cell [LawfulArith K] [RoundedArith K] (p : Profile) (cells : CellId) (hc : CellsOk cells) (lo hi x : Fin 3 → K) (hb : PlainBox lo hi x)
    (c : CellId) (h : SurelyIn lo hi cells x c) : (CartGeom.new cells (finLimits lo hi)).cellId p (finPos x) = .ok (some c) := by
  obtain ⟨c', e, _, h'⟩ := C120_cellId p cells hc lo hi x hb fun a => ⟨(h a).1, (h a).2.1⟩
  rw [e, surely_maybe hb.lo_lt h h']

theorem cart_inCell_iff (p : Profile) (cells : CellId) (lim : Limits K) (pos : Pos K) (c : CellId) :
    inCell p (Grid.newCart cells lim).geom pos c = true ↔ (CartGeom.new cells lim).isInside pos = true ∧ (CartGeom.new cells lim).cellId p pos = .ok (some c) := by
  unfold inCell
  rw [Bool.and_eq_true, decide_eq_true_eq]
  refine and_congr Iff.rfl ?_
  change (match (CartGeom.new cells lim).cellId p pos with | .ok r => r | .error _ => none) = some c ↔ _
  cases (CartGeom.new cells lim).cellId p pos with
  | ok r => simp
  | error e => simp

open Classical in
/-- **C120, counts.** The count of `numberfield` in a cell, in rounded arithmetic, is at least the number of samples safely inside the cell and at most the number of samples
not safely outside. -/
theorem C120_numberfield [LawfulArith K] [RoundedArith K] (p : Profile) (d : Dm (Timestep K)) (hd : d.Inv) (cells : CellId) (hc : CellsOk cells) (lo hi : Fin 3 → K)
    (sel : Selector K) (hs : sel.Usable) (hw : ∀ t, t < d.n → (d.file t).Wf) (hlen : (d.samples sel).length ≤ 2 ^ 53) (x : ℕ × ℕ → Fin 3 → K)
    (hx : ∀ s ∈ d.samples sel, posOf d.file s = finPos (x s) ∧ PlainBox lo hi (x s)) :
    ∃ d' g', numberfield p d (Grid.newCart cells (finLimits lo hi)) sel = .ok (d', g') ∧ ∀ c, InB cells c → ∃ n : ℕ, g'.st.data.get c = fin (n : K) ∧
      (d.samples sel).countP (fun s => decide (SurelyIn lo hi cells (x s) c)) ≤ n ∧ n ≤ (d.samples sel).countP (fun s => decide (MaybeIn lo hi cells (x s) c)) := by
  have hcart : IsCart (Grid.newCart cells (finLimits lo hi)) := isCart_new _ _ hc
  obtain ⟨d', g', e, _, _, _, _, _, h, _⟩ := C34_numberfield p d hd _ (fillable_cart p _ hcart) sel hs hw hlen
  refine ⟨d', g', e, fun c hcb => ⟨_, h c, ?_, ?_⟩⟩
  · refine List.countP_mono_left fun s hs h => ?_
    obtain ⟨e1, hb⟩ := hx s hs
    have hS := of_decide_eq_true h
    have e2 := C120_right_cell p cells hc lo hi (x s) hb c hS
    rw [e1, cart_inCell_iff]
    refine ⟨(CartGeom.isInside_iff _ _).2 fun a => ?_, e2⟩
    simpa [CartGeom.new, finLimits, finPos] using (⟨(hS a).1, (hS a).2.1⟩ : lo a ≤ x s a ∧ x s a ≤ hi a)
  · refine List.countP_mono_left fun s hs h => decide_eq_true ?_
    obtain ⟨e1, hb⟩ := hx s hs
    rw [e1, cart_inCell_iff] at h
    obtain ⟨h1, h2⟩ := h
    have hin : ∀ a, lo a ≤ x s a ∧ x s a ≤ hi a := by
      intro a
      have := (CartGeom.isInside_iff _ _).1 h1 a
      simpa [CartGeom.new, finLimits, finPos] using this
    obtain ⟨c', e3, _, h3⟩ := C120_cellId p cells hc lo hi (x s) hb hin
    rw [h2] at e3
    cases e3
    exact h3

/-- Witness for C120, in binary64: the particle at the origin in a grid of 3×3×3 cells over `[-1, 2]³`. -/
theorem origin_box : PlainBox (fun _ => (-1 : B64)) (fun _ => 2) (fun _ => 0) ∧
    SurelyIn (fun _ => (-1 : B64)) (fun _ => 2) (fun _ => 3) (fun _ => 0) (fun _ => 0) := by
  have h2 : IsDouble (2 : B64) := by
    have := F.rnd_nat (K := B64) 2 (by norm_num)
    exact_mod_cast this
  have h1 : IsDouble (-1 : B64) := by
    unfold IsDouble
    rw [LawfulArith.rnd_neg, F.rnd_one]; rfl
  have hp : (2 : B64) ≤ 2 ^ 1022 := by
    calc (2 : B64) = 2 ^ 1 := (pow_one _).symm
      _ ≤ 2 ^ 1022 := pow_le_pow_right₀ (by norm_num) (by norm_num)
  refine ⟨⟨fun _ => h1, fun _ => h2, fun _ => double_zero, fun _ => by norm_num, fun _ => ?_, fun _ => ?_⟩, fun _ => ?_⟩
  · rw [abs_neg, abs_one]; exact one_le_pow₀ (by norm_num)
  · rw [abs_of_pos (by norm_num)]; exact hp
  · unfold cellWidth slack
    norm_num

example (p : Profile) : (CartGeom.new (fun _ => 3) (finLimits (fun _ => (-1 : B64)) (fun _ => 2))).cellId p (finPos fun _ => 0) = .ok (some fun _ => 0) :=
  C120_right_cell p (fun _ => 3) (fun _ => by norm_num) _ _ _ origin_box.1 _ origin_box.2

example (p : Profile) (kind : Kind) : ∃ (d d' : Dm (Timestep B64)) (g' : Grid B64) (n : ℕ), Dm.new p kind (fun _ => oneStep) 1 Timestep.default = .ok d ∧
    numberfield p d (Grid.newCart (fun _ => 3) (finLimits (fun _ => (-1 : B64)) (fun _ => 2))) Selector.default = .ok (d', g') ∧
    g'.st.data.get (fun _ => 0) = fin (n : B64) ∧ 1 ≤ n := by
  classical
  obtain ⟨d, e, hinv, hf, hn, _⟩ := Dm.new_ok p kind (fun _ => oneStep (K := B64)) 1 Timestep.default (by norm_num) (by norm_num)
  have hS : d.samples Selector.default = [(0, 0)] := by unfold Dm.samples; rw [hf, hn]; exact one_samples
  obtain ⟨d', g', h1, h2⟩ := C120_numberfield p d hinv (fun _ => 3) (fun _ => by norm_num) (fun _ => (-1 : B64)) (fun _ => 2) Selector.default usable_default
    (fun t _ => by rw [hf]; exact ⟨rfl, rfl, rfl, rfl, rfl, rfl⟩) (by rw [hS]; norm_num) (fun _ _ => 0) (by
      rw [hS, hf]
      intro s hs
      rw [List.mem_singleton.1 hs]
      exact ⟨rfl, origin_box.1⟩)
  obtain ⟨n, h3, h4, _⟩ := h2 (fun _ => 0) (fun _ => by norm_num)
  refine ⟨d, d', g', n, e, h1, h3, ?_⟩
  rw [hS, List.countP_singleton, if_pos (decide_eq_true origin_box.2)] at h4
  exact h4

end Up4
