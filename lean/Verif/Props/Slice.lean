import Verif.Props.CartLookup
import Verif.Proofs.Store

set_option linter.unusedSectionVars false

/-! # C14: slicing at a position -/

namespace Up4
open F

variable {K : Type} [Field K] [LinearOrder K] [IsStrictOrderedRing K] [FloorRing K] [Arith K]

/-- The plane `i` normal to axis `a` of a grid's data. -/
def IsPlane (g : Grid K) (a : Fin 3) (i : ℕ) (r : Arr 2 (F K)) : Prop :=
  r.shape = (fun j => g.geom.cells (a.succAbove j)) ∧
    ∀ c, InB g.geom.cells c → c a = i → r.get (fun j => c (a.succAbove j)) = g.st.data.get c

theorem sliceAt_plane (g : Grid K) (hs : g.Shaped) (a : Fin 3) {i : ℕ} (hi : i < g.geom.cells a) :
    ∃ r, g.sliceIdx a i = .ok r ∧ IsPlane g a i r := by
  have h : i < g.st.data.shape a := by rw [hs.1]; exact hi
  refine ⟨_, by unfold Grid.sliceIdx Store.sliceAt; rw [dif_pos a.2]; exact if_pos h, ?_, ?_⟩
  · rw [hs.1]
  · intro c _ hc
    change g.st.data.get _ = _
    congr 1
    have : (fun j => c (a.succAbove j)) = a.removeNth c := rfl
    rw [this]
    change a.insertNth i (a.removeNth c) = c
    rw [← hc, Fin.insertNth_self_removeNth]

/-- `slice_idx` returns the requested plane for every existing index and panics for every other one
and for an axis other than 0, 1, 2. -/
theorem C14_sliceIdx (g : Grid K) (hs : g.Shaped) (axis i : ℕ) :
    (∀ h : axis < 3, i < g.geom.cells ⟨axis, h⟩ →
      ∃ r, g.sliceIdx axis i = .ok r ∧ IsPlane g ⟨axis, h⟩ i r) ∧
    (∀ h : axis < 3, g.geom.cells ⟨axis, h⟩ ≤ i → g.sliceIdx axis i = .error .index) ∧
    (¬ axis < 3 → g.sliceIdx axis i = .error .explicit) := by
  refine ⟨fun h hi => sliceAt_plane g hs ⟨axis, h⟩ hi, fun h hi => ?_, fun h => ?_⟩
  · unfold Grid.sliceIdx Store.sliceAt
    rw [dif_pos h]
    exact if_neg (by rw [hs.1]; omega)
  · unfold Grid.sliceIdx Store.sliceAt
    rw [dif_neg h]

/-- **C14 (partial).** The full property: for a position inside the limits `slice(axis, x)` returns the
plane to which `cell_id` assigns `x`, without panicking.  Proved (exact arithmetic, both coordinate
systems): for `lo ≤ x < hi` it returns plane `i` of the `n` equal intervals, where
`lo + i·h ≤ x < lo + (i+1)·h`, `h = (hi-lo)/n`.  Missing: agreement with `cell_id`, which uses another
scale (`C14_false`), and `x = hi`, which panics (`C14_upper_limit_panics`). -/
theorem C14_slice_partial [ExactArith K] (g : Grid K) (hs : g.Shaped) (a : Fin 3) {lo hi x : K}
    (hlim : g.geom.limits a = (fin lo, fin hi)) (hn : g.geom.cells a < 2 ^ 64)
    (h1 : lo ≤ x) (h2 : x < hi) (hpos : 1 ≤ g.geom.cells a) :
    ∃ i r, i < g.geom.cells a ∧ g.slice a (fin x) = .ok r ∧ IsPlane g a i r ∧
      lo + i * ((hi - lo) / g.geom.cells a) ≤ x ∧ x < lo + (i + 1) * ((hi - lo) / g.geom.cells a) := by
  have hd : 0 < hi - lo := by linarith
  have hn0 : (0 : K) < g.geom.cells a := by exact_mod_cast hpos
  set t := (x - lo) / (hi - lo) * (g.geom.cells a : K) with ht
  have ht0 : 0 ≤ t := mul_nonneg (div_nonneg (by linarith) hd.le) hn0.le
  have htx : t * ((hi - lo) / g.geom.cells a) = x - lo := by
    rw [ht]; field_simp
  have hh : 0 < (hi - lo) / g.geom.cells a := div_pos hd hn0
  have htn : t < g.geom.cells a := by
    have : (x - lo) / (hi - lo) < 1 := (div_lt_one hd).2 (by linarith)
    calc t < 1 * (g.geom.cells a : K) := mul_lt_mul_of_pos_right this hn0
      _ = _ := one_mul _
  have hfl : ⌊t⌋₊ < g.geom.cells a := (Nat.floor_lt ht0).2 htn
  have hidx : CartGeom.sliceIdx (g.geom.limits a) (g.geom.cells a) (fin x) = ⌊t⌋₊ := by
    unfold CartGeom.sliceIdx
    rw [hlim]
    dsimp only
    rw [esub, esub, ediv _ hd.ne', eofNat, emul]
    simp only [toUsize]
    rw [min_eq_left]
    rw [← ht]; unfold usizeMax; omega
  obtain ⟨r, hr, hp⟩ := sliceAt_plane g hs a hfl
  refine ⟨⌊t⌋₊, r, hfl, ?_, hp, ?_, ?_⟩
  · unfold Grid.slice
    rw [dif_pos a.2]
    change g.st.sliceAt a (CartGeom.sliceIdx (g.geom.limits a) (g.geom.cells a) (fin x)) = _
    rw [hidx]; exact hr
  · have := mul_le_mul_of_nonneg_right (Nat.floor_le ht0) hh.le
    linarith
  · have := mul_lt_mul_of_pos_right (Nat.lt_floor_add_one t) hh
    linarith

/-- Witness for C14: a 4×4×4 grid over `[0,1]³`, any `x` in `[0,1)`. -/
example : (Grid.newCart (fun _ => 4) (finLimits (fun _ => (0 : ℝ)) (fun _ => 1))).Shaped ∧
    (Grid.newCart (fun _ => 4) (finLimits (fun _ => (0 : ℝ)) (fun _ => 1))).geom.limits 0 = (fin 0, fin 1) :=
  ⟨⟨rfl, rfl⟩, rfl⟩

/-- **C14 fails at the upper limit**: on any grid with at least one and at most `2^53` cells and finite
positive extent, `slice(axis, hi)` panics (index out of bounds), under every lawful rounding, although
`hi` is inside the grid. -/
theorem C14_upper_limit_panics [LawfulArith K] (g : Grid K) (hs : g.Shaped) (a : Fin 3)
    (hm : g.geom.cells a ≤ 2 ^ 53)
    (hd : ∃ d, 0 < d ∧ (g.geom.limits a).2 - (g.geom.limits a).1 = fin d) :
    g.slice a (g.geom.limits a).2 = .error .index := by
  have hidx : CartGeom.sliceIdx (g.geom.limits a) (g.geom.cells a) (g.geom.limits a).2 = g.geom.cells a := by
    obtain ⟨d, hd0, hd⟩ := hd
    unfold CartGeom.sliceIdx
    rw [hd, div_fin_ne _ hd0.ne', div_self hd0.ne', rnd_one, ofNat_eq _ (by omega), mul_fin, one_mul,
      rnd_nat _ (by omega)]
    simp only [toUsize, Nat.floor_natCast]
    rw [min_eq_left]
    unfold usizeMax; omega
  unfold Grid.slice Store.sliceAt
  rw [dif_pos a.2, dif_pos a.2]
  refine if_neg ?_
  rw [hs.1]
  change ¬ CartGeom.sliceIdx (g.geom.limits a) (g.geom.cells a) (g.geom.limits a).2 < g.geom.cells a
  rw [hidx]; omega

/-- Under every lawful rounding and for every position in the limits (also infinite limits) `slice`
either panics with an index error or returns one of the grid's planes. -/
theorem C14_slice_some_plane [LawfulArith K] (g : Grid K) (hs : g.Shaped) (a : Fin 3)
    (x : F K) : g.slice a x = .error .index ∨
      ∃ i r, i < g.geom.cells a ∧ g.slice a x = .ok r ∧ IsPlane g a i r := by
  by_cases h : CartGeom.sliceIdx (g.geom.limits a) (g.geom.cells a) x < g.geom.cells a
  · right
    obtain ⟨r, hr, hp⟩ := sliceAt_plane g hs a h
    refine ⟨_, r, h, ?_, hp⟩
    unfold Grid.slice
    rw [dif_pos a.2]
    exact hr
  · left
    unfold Grid.slice Store.sliceAt
    rw [dif_pos a.2, dif_pos a.2]
    refine if_neg ?_
    rw [hs.1]
    exact h

/-- **C14 is false of the code**, in every lawful arithmetic: on the 2×2×2 grid over `[0,4]³` the
position 3 is in cell 0 according to `cell_id`, but `slice(axis, 3)` selects plane 1. -/
theorem C14_false [LawfulArith K] (p : Profile) :
    (Grid.newCart (fun _ => 2) (finLimits (fun _ => (0 : K)) (fun _ => 4))).cellId p (fun _ => fin 3)
      = .ok (some fun _ => 0) ∧
    ∀ a, CartGeom.sliceIdx (finLimits (fun _ => (0 : K)) (fun _ => 4) a) 2 (fin 3) = 1 := by
  refine ⟨(C04_false p).2, fun a => ?_⟩
  have h4 : (Arith.rnd (4 : K)) = fin 4 := by
    have := rnd_nat (K := K) 4 (by norm_num); simpa using this
  have h3 : (Arith.rnd (3 : K)) = fin 3 := by
    have := rnd_nat (K := K) 3 (by norm_num); simpa using this
  have h34 : (Arith.rnd (3 / 4 : K)) = fin (3 / 4) := by
    have := LawfulArith.rnd_dyadic (K := K) 3 2 (by norm_num) (by norm_num); norm_num at this; exact this
  have h32 : (Arith.rnd (3 / 2 : K)) = fin (3 / 2) := by
    have := LawfulArith.rnd_dyadic (K := K) 3 1 (by norm_num) (by norm_num); norm_num at this; exact this
  simp only [CartGeom.sliceIdx, finLimits]
  rw [sub_fin, sub_fin, sub_zero, sub_zero, h3, h4, div_fin_ne _ (by norm_num), h34,
    ofNat_eq 2 (by norm_num), mul_fin]
  have : (3 / 4 * ((2 : ℕ) : K)) = 3 / 2 := by norm_num
  rw [this, h32]
  have hf : ⌊(3 / 2 : K)⌋₊ = 1 := by rw [Nat.floor_eq_iff (by norm_num)]; norm_num
  simp only [toUsize, hf]
  decide

end Up4
