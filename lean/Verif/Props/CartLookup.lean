import Verif.Proofs.Cart
import Verif.RealArith

set_option linter.unusedSectionVars false

/-! # C01–C05: the Cartesian cell lookup -/

namespace Up4
open F

variable {K : Type} [Field K] [LinearOrder K] [IsStrictOrderedRing K] [FloorRing K] [Arith K]

/-- **C01.** For every lawful rounding, both build profiles, all limits and all positions (NaN and
infinities included): outside the box the lookup is an error, inside it is a cell of the grid. -/
theorem C01_cellId_inBounds [LawfulArith K] (p : Profile) (g : CartGeom K) (hc : CellsOk g.cells)
    (pos : Pos K) :
    (¬ InBox g.limits pos → g.cellId p pos = .ok none) ∧
    (InBox g.limits pos → ∃ c, g.cellId p pos = .ok (some c) ∧ ∀ a, c a < g.cells a) := by
  rw [CartGeom.cellId_eq p g hc]
  constructor
  · intro h
    rw [if_neg]
    rw [CartGeom.isInside_iff]; exact h
  · intro h
    rw [if_pos ((CartGeom.isInside_iff _ _).2 h)]
    refine ⟨_, rfl, fun a => ?_⟩
    exact CartGeom.axisVal_lt _ (hc a).1 (hc a).2 (h a).2.1 (h a).2.2

/-- Witness for C01: a 3×1×5 grid over `[0,2]³` and an inside position. -/
example : CellsOk ![3, 1, 5] ∧ InBox (finLimits (fun _ => (0 : ℝ)) (fun _ => 2)) (finPos ![0, 1, 2]) := by
  constructor
  · intro a; fin_cases a <;> simp
  · intro a; fin_cases a <;> simp [finLimits, finPos]

/-- **C02.** `is_inside` is membership in the closed box; no arithmetic is involved. -/
theorem C02_isInside_iff (g : CartGeom K) (pos : Pos K) :
    g.isInside pos = true ↔
      ∀ a, pos a ≠ F.nan ∧ (g.limits a).1 ≤ pos a ∧ pos a ≤ (g.limits a).2 :=
  CartGeom.isInside_iff g pos

/-- C02 for finite limits and positions, without the `f64` wrapper. -/
theorem C02_isInside_fin (cells : CellId) (lo hi x : Fin 3 → K) :
    (CartGeom.new cells (finLimits lo hi)).isInside (finPos x) = true ↔
      ∀ a, lo a ≤ x a ∧ x a ≤ hi a := by
  rw [C02_isInside_iff]
  simp [CartGeom.new, finLimits, finPos]

/-- **C03, monotone part.** Per axis, a larger coordinate never gets a smaller index; in particular the
index on an axis depends only on the coordinate of that axis. -/
theorem C03_cellId_mono [LawfulArith K] (p : Profile) (g : CartGeom K) (hc : CellsOk g.cells)
    (pos pos' : Pos K) (c c' : CellId) (h : g.cellId p pos = .ok (some c))
    (h' : g.cellId p pos' = .ok (some c')) (a : Fin 3) (hle : pos a ≤ pos' a) : c a ≤ c' a := by
  rw [CartGeom.cellId_eq p g hc] at h h'
  split_ifs at h h' with hi hi'
  · simp only [Except.ok.injEq, Option.some.injEq] at h h'
    subst h h'
    have hb := (CartGeom.isInside_iff _ _).1 hi
    have hb' := (CartGeom.isInside_iff _ _).1 hi'
    exact CartGeom.axisVal_mono _ (hc a).2 (hb a).2.1 hle (hb' a).2.2
  all_goals simp at h h'

/-- C03: equal coordinates on an axis give equal indices on that axis. -/
theorem C03_cellId_axis [LawfulArith K] (p : Profile) (g : CartGeom K) (hc : CellsOk g.cells)
    (pos pos' : Pos K) (c c' : CellId) (h : g.cellId p pos = .ok (some c))
    (h' : g.cellId p pos' = .ok (some c')) (a : Fin 3) (heq : pos a = pos' a) : c a = c' a := by
  have hin : pos a ≠ nan := by
    rw [CartGeom.cellId_eq p g hc] at h
    split_ifs at h with hi
    · exact ((CartGeom.isInside_iff _ _).1 hi a).1
    · simp at h
  refine le_antisymm (C03_cellId_mono p g hc _ _ _ _ h h' a ?_) (C03_cellId_mono p g hc _ _ _ _ h' h a ?_)
  · rw [← heq]; exact le_refl' hin
  · rw [← heq]; exact le_refl' hin

/-- **C03, ends.** On the lower limit the index is `0`; on the upper limit it is the last one, provided
`max - min` is a positive finite `f64` (for a degenerate axis it is `0`). -/
theorem C03_cellId_ends [LawfulArith K] (p : Profile) (g : CartGeom K) (hc : CellsOk g.cells)
    (pos : Pos K) (c : CellId) (h : g.cellId p pos = .ok (some c)) (a : Fin 3) :
    (pos a = (g.limits a).1 → c a = 0) ∧
    (pos a = (g.limits a).2 → (∃ d, 0 < d ∧ (g.limits a).2 - (g.limits a).1 = F.fin d) →
      c a = g.cells a - 1) := by
  rw [CartGeom.cellId_eq p g hc] at h
  split_ifs at h with hi
  · simp only [Except.ok.injEq, Option.some.injEq] at h
    subst h
    constructor
    · intro e; dsimp only; rw [e]; exact CartGeom.axisVal_lo _ (hc a).2
    · intro e hd; dsimp only; rw [e]; exact CartGeom.axisVal_hi _ (hc a).2 hd
  · simp at h

/-- Witness for C03: the hypotheses on the upper end hold for an ordinary axis. -/
example : ∃ d : ℝ, 0 < d ∧ (F.fin 2 - F.fin 0 : F ℝ) = F.fin d := ⟨2, by norm_num, by rw [esub]; norm_num⟩

section exact
variable [ExactArith K]

/-- The exact index formula: `⌊(x - lo)/(hi - lo)·(n-1)⌋`. -/
theorem axisIdx_exact (p : Profile) {lo hi x : K} {n : ℕ} (hn : 1 ≤ n) (hm : n < 2 ^ 64)
    (hlt : lo < hi) :
    CartGeom.axisIdx p (fin lo, fin hi) n (fin x) =
      .ok (min ⌊(x - lo) / (hi - lo) * ((n - 1 : ℕ) : K)⌋₊ usizeMax) := by
  have hd : hi - lo ≠ 0 := (sub_pos.2 hlt).ne'
  unfold CartGeom.axisIdx
  rw [usub_of_le p hn (by unfold usizeMod; omega)]
  change Except.ok _ = _
  rw [esub, esub, ediv _ hd, eofNat, emul]; rfl

/-- The exact published centre: `lo + (i + 1/2)·(hi - lo)/n`. -/
theorem centre_exact {lo hi : K} {n i : ℕ} (hn : 1 ≤ n) :
    CartGeom.centre (fin lo, fin hi) n i = fin (lo + (i + 1 / 2) * ((hi - lo) / n)) := by
  have hn' : (n : K) ≠ 0 := by exact_mod_cast (by omega : n ≠ 0)
  have h2 : ((2 : ℕ) : K) ≠ 0 := by norm_num
  unfold CartGeom.centre
  simp only [esub, eofNat]
  rw [ediv _ hn', ediv _ h2, emul, eadd, eadd]
  congr 1
  push_cast
  ring

/-- **C04, exact characterisation.** Looking up the published centre of cell `i` gives `i` for the
lower half of the axis (`2i + 1 ≤ n`) and `i - 1` for the upper half. -/
theorem C04_centre_index (p : Profile) {lo hi : K} {n i : ℕ} (hm : n < 2 ^ 64) (hi' : i < n)
    (hlt : lo < hi) :
    CartGeom.axisIdx p (fin lo, fin hi) n (CartGeom.centre (fin lo, fin hi) n i) =
      .ok (if 2 * i + 1 ≤ n then i else i - 1) := by
  have hn : 1 ≤ n := by omega
  have hn0 : (0 : K) < n := by exact_mod_cast hn
  have hd : 0 < hi - lo := sub_pos.2 hlt
  rw [centre_exact hn, axisIdx_exact p hn hm hlt]
  have hform : (lo + (i + 1 / 2) * ((hi - lo) / n) - lo) / (hi - lo) * ((n - 1 : ℕ) : K)
      = (i + 1 / 2) * ((n : K) - 1) / n := by
    rw [Nat.cast_sub hn]; push_cast; field_simp; ring
  rw [hform]
  congr 1
  have hin : (i : K) + 1 ≤ n := by exact_mod_cast hi'
  split_ifs with hc
  · have hc' : 2 * (i : K) + 1 ≤ n := by exact_mod_cast hc
    have hfl : ⌊((i : K) + 1 / 2) * ((n : K) - 1) / n⌋₊ = i := by
      rw [Nat.floor_eq_iff (div_nonneg (mul_nonneg (by positivity) (by linarith [Nat.cast_nonneg (α := K) i])) hn0.le)]
      constructor
      · rw [le_div_iff₀ hn0]; nlinarith
      · rw [div_lt_iff₀ hn0]; nlinarith
    rw [hfl, min_eq_left]; unfold usizeMax; omega
  · have hc' : (n : K) + 1 ≤ 2 * i + 1 := by exact_mod_cast (by omega : n + 1 ≤ 2 * i + 1)
    have hi1 : 1 ≤ i := by omega
    have hfl : ⌊((i : K) + 1 / 2) * ((n : K) - 1) / n⌋₊ = i - 1 := by
      rw [Nat.floor_eq_iff (div_nonneg (mul_nonneg (by positivity) (by linarith [Nat.cast_nonneg (α := K) i])) hn0.le), Nat.cast_sub hi1]
      push_cast
      constructor
      · rw [le_div_iff₀ hn0]; nlinarith
      · rw [div_lt_iff₀ hn0]; nlinarith
    rw [hfl, min_eq_left]; unfold usizeMax; omega

/-- C04 at the level of the grid: looking up the published centre of cell `c` of a freshly built grid
returns, on each axis, `c` in the lower half and `c - 1` in the upper half. -/
theorem C04_centre_lookup (p : Profile) (cells : CellId) (lo hi : Fin 3 → K)
    (hm : ∀ a, cells a < 2 ^ 64) (hlt : ∀ a, lo a < hi a) (c : CellId) (hc : InB cells c) (q : Pos K)
    (hq : ∀ a, ((CartGeom.new cells (finLimits lo hi)).positions a)[c a]? = some (q a)) :
    (CartGeom.new cells (finLimits lo hi)).cellId p q =
      .ok (some fun a => if 2 * c a + 1 ≤ cells a then c a else c a - 1) := by
  have hq' : ∀ a, q a = CartGeom.centre (fin (lo a), fin (hi a)) (cells a) (c a) := by
    intro a
    have := hq a
    simp only [CartGeom.new, finLimits, List.getElem?_map, List.getElem?_range (hc a),
      Option.map_some, Option.some.injEq] at this
    exact this.symm
  have hn : ∀ a, 1 ≤ cells a := fun a => by have := hc a; omega
  have hin : (CartGeom.new cells (finLimits lo hi)).isInside q = true := by
    rw [CartGeom.isInside_iff]
    intro a
    have hd : 0 < hi a - lo a := sub_pos.2 (hlt a)
    have hn0 : (0 : K) < cells a := by exact_mod_cast hn a
    have hc1 : (c a : K) + 1 ≤ cells a := by exact_mod_cast hc a
    have hc0 : (0 : K) ≤ c a := Nat.cast_nonneg _
    rw [hq' a, centre_exact (hn a)]
    refine ⟨by simp, ?_, ?_⟩
    · simp only [CartGeom.new, finLimits, le_fin]
      have : 0 ≤ ((c a : K) + 1 / 2) * ((hi a - lo a) / cells a) := by positivity
      linarith
    · simp only [CartGeom.new, finLimits, le_fin]
      have : ((c a : K) + 1 / 2) * ((hi a - lo a) / cells a) ≤ hi a - lo a := by
        rw [← mul_div_assoc, div_le_iff₀ hn0]; nlinarith
      linarith
  unfold CartGeom.cellId
  rw [hin]
  simp only [Bool.true_eq_false, if_false]
  have e : ∀ a, CartGeom.axisIdx p ((CartGeom.new cells (finLimits lo hi)).limits a)
      ((CartGeom.new cells (finLimits lo hi)).cells a) (q a) =
      .ok (if 2 * c a + 1 ≤ cells a then c a else c a - 1) := by
    intro a
    rw [hq' a]
    exact C04_centre_index p (hm a) (hc a) (hlt a)
  rw [e 0, e 1, e 2]
  change Except.ok (some _) = _
  congr 2
  funext a
  fin_cases a <;> rfl

/-- **C04 (partial).** The full property is: for *every* cell the lookup of its published centre
returns the cell.  Proved: it does for cells in the lower half of every axis (`2·c + 1 ≤ n`).
Missing: the other cells, for which it is false (`C04_false`). -/
theorem C04_centre_roundtrip_partial (p : Profile) (cells : CellId) (lo hi : Fin 3 → K)
    (hm : ∀ a, cells a < 2 ^ 64) (hlt : ∀ a, lo a < hi a) (c : CellId)
    (hc : ∀ a, 2 * c a + 1 ≤ cells a) (q : Pos K)
    (hq : ∀ a, ((CartGeom.new cells (finLimits lo hi)).positions a)[c a]? = some (q a)) :
    (CartGeom.new cells (finLimits lo hi)).cellId p q = .ok (some c) := by
  rw [C04_centre_lookup p cells lo hi hm hlt c (fun a => by have := hc a; omega) q hq]
  congr 2
  funext a
  simp [hc a]

/-- Witness for C04: cell (1,1,1) of a 3×3×3 grid is in the lower half and has a published centre. -/
example (lo hi : Fin 3 → K) : (∀ a : Fin 3, 2 * (fun _ : Fin 3 => 1) a + 1 ≤ (fun _ : Fin 3 => 3) a) ∧
    ∃ q : Pos K, ∀ a, ((CartGeom.new (fun _ => 3) (finLimits lo hi)).positions a)[1]? = some (q a) :=
  ⟨fun _ => by norm_num, fun a => CartGeom.centre (finLimits lo hi a) 3 1, fun a => by
    simp [CartGeom.new, List.range_succ]⟩

/-- **C05.** Exact arithmetic: the published positions of an axis are `lo + (i+1/2)·h`, `h = (hi-lo)/n`:
`n` of them, equally spaced by `h`, strictly increasing, strictly inside the limits, half a cell from
the ends. -/
theorem C05_centres (cells : CellId) (lo hi : Fin 3 → K) (hlt : ∀ a, lo a < hi a) (a : Fin 3)
    (hn : 1 ≤ cells a) :
    ∃ x : ℕ → K,
      (CartGeom.new cells (finLimits lo hi)).positions a = (List.range (cells a)).map (fun i => fin (x i)) ∧
      (∀ i, x (i + 1) - x i = (hi a - lo a) / cells a) ∧
      (∀ i j, i < j → x i < x j) ∧
      (∀ i, i < cells a → lo a < x i ∧ x i < hi a) ∧
      x 0 - lo a = (hi a - lo a) / cells a / 2 ∧
      hi a - x (cells a - 1) = (hi a - lo a) / cells a / 2 := by
  have hn0 : (0 : K) < cells a := by exact_mod_cast hn
  have hd : 0 < hi a - lo a := sub_pos.2 (hlt a)
  have hh : 0 < (hi a - lo a) / cells a := div_pos hd hn0
  have hcell : (hi a - lo a) / cells a * cells a = hi a - lo a := div_mul_cancel₀ _ hn0.ne'
  refine ⟨fun i => lo a + (i + 1 / 2) * ((hi a - lo a) / cells a), ?_, ?_, ?_, ?_, ?_, ?_⟩
  · simp only [CartGeom.new, finLimits]
    congr 1
    funext i
    exact centre_exact hn
  · intro i; push_cast; ring
  · intro i j hij
    have : (i : K) < j := by exact_mod_cast hij
    have := mul_lt_mul_of_pos_right (show (i : K) + 1 / 2 < j + 1 / 2 by linarith) hh
    linarith
  · intro i hi'
    have h1 : (i : K) + 1 ≤ cells a := by exact_mod_cast hi'
    have h0 : (0 : K) ≤ i := Nat.cast_nonneg _
    constructor
    · have : 0 < ((i : K) + 1 / 2) * ((hi a - lo a) / cells a) := by positivity
      linarith
    · have : ((i : K) + 1 / 2) * ((hi a - lo a) / cells a) < cells a * ((hi a - lo a) / cells a) :=
        mul_lt_mul_of_pos_right (by linarith) hh
      linarith
  · simp; ring
  · have : ((cells a - 1 : ℕ) : K) = cells a - 1 := by rw [Nat.cast_sub hn]; simp
    simp only [this]
    have : hi a - (lo a + ((cells a : K) - 1 + 1 / 2) * ((hi a - lo a) / cells a)) =
      (hi a - lo a) - (hi a - lo a) / cells a * cells a + (hi a - lo a) / cells a / 2 := by ring
    rw [this, hcell]; ring

end exact

/-- `4/2 = 2` and the like, in every lawful arithmetic. -/
theorem lawful_dyadic [LawfulArith K] (m k : ℕ) (hm : m ≤ 2 ^ 53) (hk : k ≤ 1000) :
    (Arith.rnd ((m : K) / 2 ^ k) : F K) = fin ((m : K) / 2 ^ k) := LawfulArith.rnd_dyadic m k hm hk

/-- **C04 is false of the code**, in every lawful arithmetic (hence also in exact arithmetic): on the
2×2×2 grid over `[0,4]³` the published centre of cell (1,1,1) is (3,3,3), which is looked up as
cell (0,0,0). -/
theorem C04_false [LawfulArith K] (p : Profile) :
    (∀ a, ((CartGeom.new (fun _ => 2) (finLimits (fun _ => (0 : K)) (fun _ => 4))).positions a)[1]?
      = some (fin 3)) ∧
    (CartGeom.new (fun _ => 2) (finLimits (fun _ => (0 : K)) (fun _ => 4))).cellId p (fun _ => fin 3)
      = .ok (some fun _ => 0) := by
  have h4 : (Arith.rnd (4 : K)) = fin 4 := by
    have := rnd_nat (K := K) 4 (by norm_num); simpa using this
  have h2 : (Arith.rnd (2 : K)) = fin 2 := by
    have := rnd_nat (K := K) 2 (by norm_num); simpa using this
  have h3 : (Arith.rnd (3 : K)) = fin 3 := by
    have := rnd_nat (K := K) 3 (by norm_num); simpa using this
  have h34 : (Arith.rnd (3 / 4 : K)) = fin (3 / 4) := by
    have := LawfulArith.rnd_dyadic (K := K) 3 2 (by norm_num) (by norm_num); norm_num at this; exact this
  have e42 : (4 / 2 : K) = 2 := by norm_num
  have e22 : (2 / 2 : K) = 1 := by norm_num
  have e21 : (2 + 1 : K) = 3 := by norm_num
  constructor
  · intro a
    simp only [CartGeom.new, List.getElem?_map]
    rw [List.getElem?_range (by norm_num)]
    simp only [Option.map_some, Option.some.injEq, CartGeom.centre, finLimits]
    rw [ofNat_eq 2 (by norm_num), ofNat_eq 1 (by norm_num), sub_fin, sub_zero, h4]
    push_cast
    rw [div_fin_ne _ (by norm_num), e42, h2, div_fin_ne _ (by norm_num), e22, rnd_one, mul_fin, one_mul,
      h2, add_fin, e21, h3, add_fin, add_zero, h3]
  · rw [CartGeom.cellId_eq p _ (fun a => by simp [CartGeom.new])]
    rw [if_pos]
    · congr 2
      funext a
      simp only [CartGeom.axisVal, CartGeom.new, finLimits]
      rw [sub_fin, sub_fin, sub_zero, sub_zero, h3, h4, div_fin_ne _ (by norm_num), h34,
        ofNat_eq (2 - 1) (by norm_num), mul_fin]
      norm_num
      rw [h34]
      simp only [toUsize]
      rw [Nat.floor_eq_zero.2 (by norm_num)]
      simp
    · rw [CartGeom.isInside_iff]
      intro a
      simp [CartGeom.new, finLimits]
      norm_num

end Up4
