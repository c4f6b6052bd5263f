import Verif.Spec

set_option linter.unusedSectionVars false

/-! Lemmas about the Cartesian cell lookup, valid for every lawful rounding. -/

namespace Up4

variable {K : Type} [Field K] [LinearOrder K] [IsStrictOrderedRing K] [FloorRing K] [Arith K]

namespace F
section
variable [LawfulArith K]
open LawfulArith

theorem rnd_sub_range {lo x hi : K} (h1 : lo ≤ x) (h2 : x ≤ hi) :
    fin 0 ≤ Arith.rnd (x - lo) ∧ Arith.rnd (x - lo) ≤ Arith.rnd (hi - lo) :=
  ⟨fin_le_rnd rep_zero (sub_nonneg.2 h1), rnd_mono _ _ (sub_le_sub_right h2 _)⟩

/-- Numerator and denominator of the index formula: NaN, or ordered. -/
theorem sub_range {lo x hi : F K} (h1 : lo ≤ x) (h2 : x ≤ hi) :
    x - lo = nan ∨ hi - lo = nan ∨ (fin 0 ≤ x - lo ∧ x - lo ≤ hi - lo) := by
  cases lo <;> cases x <;> cases hi <;>
    (try simp only [not_pinf_le_fin, not_pinf_le_ninf, not_fin_le_ninf, nan_le, le_nan] at h1 h2) <;>
    first
    | (left; rfl)
    | (right; right; constructor <;> rfl)
    | skip
  · rename_i lo x
    right; right
    rw [sub_fin]
    refine ⟨fin_le_rnd rep_zero (sub_nonneg.2 (by simpa using h1)), ?_⟩
    change _ ≤ (pinf : F K)
    have := rnd_ne_nan (x - lo)
    cases h : Arith.rnd (x - lo) <;> simp_all
  · right; right
    rw [sub_fin, sub_fin]
    exact rnd_sub_range (by simpa using h1) (by simpa using h2)

/-- A quotient of ordered nonnegative numbers is NaN or in `[0, 1]`. -/
theorem ratio_range {a b : F K} (h0 : fin 0 ≤ a) (h : a ≤ b) :
    a / b = nan ∨ ∃ q, a / b = fin q ∧ 0 ≤ q ∧ q ≤ 1 := by
  cases a <;> cases b <;> try simp only [not_pinf_le_fin, not_pinf_le_ninf, not_fin_le_ninf, le_nan] at h0 h
  · left; rfl
  · right; exact ⟨0, rfl, le_refl _, zero_le_one⟩
  · rename_i a b
    have h0 : 0 ≤ a := by simpa using h0
    have h : a ≤ b := by simpa using h
    rw [div_fin]
    split_ifs with hb
    · subst hb
      have : a = 0 := le_antisymm h h0
      subst this
      left; simp [infTimes]
    · right
      have hb' : 0 < b := lt_of_le_of_ne (h0.trans h) (Ne.symm hb)
      exact rnd_between rep_zero rep_one (div_nonneg h0 hb'.le) ((div_le_one hb').2 h)

/-- The fraction of the axis at which `x` lies: NaN or in `[0, 1]`. -/
theorem frac_range {lo x hi : F K} (h1 : lo ≤ x) (h2 : x ≤ hi) :
    (x - lo) / (hi - lo) = nan ∨ ∃ q, (x - lo) / (hi - lo) = fin q ∧ 0 ≤ q ∧ q ≤ 1 := by
  rcases sub_range h1 h2 with h | h | ⟨h, h'⟩
  · left; rw [h, nan_div]
  · left; rw [h, div_nan]
  · exact ratio_range h h'

/-- Scaling a fraction by `m` and truncating stays in `0..m`. -/
theorem scale_range {q : K} {m : ℕ} (hm : m ≤ 2 ^ 53) (h0 : 0 ≤ q) (h1 : q ≤ 1) :
    ∃ y, fin q * (ofNat m : F K) = fin y ∧ 0 ≤ y ∧ y ≤ m := by
  rw [ofNat_eq m hm, mul_fin]
  have hm0 : (0 : K) ≤ (m : K) := Nat.cast_nonneg m
  refine rnd_between rep_zero (rep_nat hm) (mul_nonneg h0 hm0) ?_
  calc q * m ≤ 1 * m := mul_le_mul_of_nonneg_right h1 hm0
    _ = m := one_mul _

theorem toUsize_le {y : K} {m : ℕ} (h : y ≤ m) : (fin y : F K).toUsize ≤ m := by
  simp only [toUsize]
  refine (min_le_left _ _).trans ?_
  exact (Nat.floor_mono h).trans (by simp)

theorem toUsize_mono {x y : K} (h : x ≤ y) : (fin x : F K).toUsize ≤ (fin y : F K).toUsize := by
  simp only [toUsize]
  exact min_le_min_right _ (Nat.floor_mono h)

end
end F

namespace CartGeom
open F LawfulArith

theorem isInside_iff (g : CartGeom K) (pos : Pos K) : g.isInside pos = true ↔ InBox g.limits pos := by
  unfold isInside InBox
  constructor
  · intro h
    split_ifs at h with hn
    intro a
    have ha := (of_decide_eq_true h) a
    refine ⟨fun hnan => ?_, ha⟩
    rw [hnan] at ha; simp at ha
  · intro h
    rw [if_neg]
    · exact decide_eq_true fun a => (h a).2
    · simp only [Bool.or_eq_true, not_or, isNaN_iff]
      exact ⟨⟨(h 0).1, (h 1).1⟩, (h 2).1⟩

section
variable [LawfulArith K]

/-- The value computed for one axis when the axis has at least one cell. -/
def axisVal (lim : F K × F K) (n : ℕ) (x : F K) : ℕ :=
  ((x - lim.1) / (lim.2 - lim.1) * F.ofNat (n - 1)).toUsize

theorem axisIdx_eq (p : Profile) (lim : F K × F K) {n : ℕ} (hn : 1 ≤ n) (hm : n ≤ 2 ^ 53) (x : F K) :
    axisIdx p lim n x = .ok (axisVal lim n x) := by
  unfold axisIdx axisVal
  rw [usub_of_le p hn (by unfold usizeMod; omega)]
  rfl

theorem axisVal_lt (lim : F K × F K) {n : ℕ} (hn : 1 ≤ n) (hm : n ≤ 2 ^ 53) {x : F K}
    (h1 : lim.1 ≤ x) (h2 : x ≤ lim.2) : axisVal lim n x < n := by
  unfold axisVal
  rcases frac_range h1 h2 with h | ⟨q, h, h0, h1'⟩
  · rw [h, nan_mul]; simp [toUsize]; omega
  · rw [h]
    obtain ⟨y, hy, _, hy1⟩ := scale_range (K := K) (m := n - 1) (by omega) h0 h1'
    rw [hy]
    have := toUsize_le hy1
    omega

theorem axisVal_mono (lim : F K × F K) {n : ℕ} (hm : n ≤ 2 ^ 53) {x y : F K}
    (h1 : lim.1 ≤ x) (hxy : x ≤ y) (h2 : y ≤ lim.2) : axisVal lim n x ≤ axisVal lim n y := by
  unfold axisVal
  obtain ⟨lo, hi⟩ := lim
  dsimp only at *
  have hx2 := le_trans' hxy h2
  have hy1 := le_trans' h1 hxy
  -- cases on the denominator
  cases hd : hi - lo with
  | nan => rw [div_nan, div_nan]
  | ninf =>
    rcases sub_range h1 hx2 with h | h | ⟨h, h'⟩
    · rw [h, nan_div, nan_mul]; simp [toUsize]
    · rw [h] at hd; cases hd
    · rw [hd] at h'; have := le_trans' h h'; simp at this
  | pinf =>
    have hz : ∀ z : F K, (z / pinf * (ofNat (n - 1) : F K)).toUsize = 0 := by
      intro z
      have : z / pinf = nan ∨ z / pinf = fin 0 := by
        cases z <;> first | (left; rfl) | (right; rfl)
      rcases this with h | h
      · rw [h, nan_mul]; rfl
      · rw [h, ofNat_eq _ (by omega), mul_fin, zero_mul, rnd_zero]; simp [toUsize]
    rw [hz, hz]
  | fin d =>
    have hfin : ∃ l h, lo = fin l ∧ hi = fin h := by
      cases lo <;> cases hi <;> simp_all [sub_def, neg, add]
    obtain ⟨l, h, rfl, rfl⟩ := hfin
    have hxf : ∃ u, x = fin u := by
      cases x <;> simp_all
    have hyf : ∃ u, y = fin u := by
      cases y <;> simp_all
    obtain ⟨u, rfl⟩ := hxf
    obtain ⟨v, rfl⟩ := hyf
    simp only [le_fin] at *
    rw [sub_fin] at hd
    rw [sub_fin, sub_fin]
    obtain ⟨hu0, hu1⟩ := rnd_sub_range (K := K) h1 hx2
    obtain ⟨hv0, hv1⟩ := rnd_sub_range (K := K) hy1 h2
    rw [hd] at hu1 hv1
    have huv := rnd_mono (u - l) (v - l) (sub_le_sub_right hxy _)
    cases hru : Arith.rnd (u - l) with
    | nan => exact absurd hru (rnd_ne_nan _)
    | ninf => rw [hru] at hu0; simp at hu0
    | pinf => rw [hru] at hu1; simp at hu1
    | fin a =>
    cases hrv : Arith.rnd (v - l) with
    | nan => exact absurd hrv (rnd_ne_nan _)
    | ninf => rw [hrv] at hv0; simp at hv0
    | pinf => rw [hrv] at hv1; simp at hv1
    | fin b =>
    rw [hru] at hu0 hu1 huv
    rw [hrv] at hv0 hv1 huv
    simp only [le_fin] at *
    rcases eq_or_lt_of_le (hv0.trans hv1) with h0 | h0
    · have : a = b := le_antisymm huv (by rw [← h0] at hv1; exact hv1.trans hu0)
      rw [this]
    · rw [div_fin_ne _ h0.ne', div_fin_ne _ h0.ne']
      obtain ⟨q, hq, hq0, hq1⟩ := rnd_between rep_zero rep_one (div_nonneg hu0 h0.le)
        ((div_le_one h0).2 hu1)
      obtain ⟨r, hr, hr0, hr1⟩ := rnd_between rep_zero rep_one (div_nonneg hv0 h0.le)
        ((div_le_one h0).2 hv1)
      have hqr : q ≤ r := by
        have := rnd_mono (a / d) (b / d) (div_le_div_of_nonneg_right huv h0.le)
        rw [hq, hr] at this; simpa using this
      rw [hq, hr]
      have hnm : n - 1 ≤ 2 ^ 53 := by omega
      obtain ⟨s, hs, hs0, hs1⟩ := scale_range (K := K) hnm hq0 hq1
      obtain ⟨t, ht, ht0, ht1⟩ := scale_range (K := K) hnm hr0 hr1
      have hst : s ≤ t := by
        rw [ofNat_eq _ hnm, mul_fin] at hs ht
        have := rnd_mono (q * ((n - 1 : ℕ) : K)) (r * ((n - 1 : ℕ) : K))
          (mul_le_mul_of_nonneg_right hqr (Nat.cast_nonneg _))
        rw [hs, ht] at this; simpa using this
      rw [hs, ht]
      exact toUsize_mono hst

theorem axisVal_lo (lim : F K × F K) {n : ℕ} (hm : n ≤ 2 ^ 53) : axisVal lim n lim.1 = 0 := by
  obtain ⟨lo, hi⟩ := lim
  unfold axisVal
  dsimp only
  have hself : lo - lo = nan ∨ lo - lo = fin 0 := by
    cases lo with
    | nan => left; rfl
    | ninf => left; rfl
    | pinf => left; rfl
    | fin l => right; rw [sub_fin, sub_self, rnd_zero]
  rcases hself with h | h
  · rw [h, nan_div, nan_mul]; rfl
  · rw [h]
    have : (fin 0 / (hi - lo) = nan) ∨ (fin 0 / (hi - lo) = fin (0 : K)) := by
      cases hi - lo with
      | nan => left; rfl
      | ninf => right; rfl
      | pinf => right; rfl
      | fin d =>
        rw [div_fin]
        split_ifs
        · left; simp [infTimes]
        · right; rw [zero_div, rnd_zero]
    rcases this with h | h
    · rw [h, nan_mul]; rfl
    · rw [h, ofNat_eq _ (by omega), mul_fin, zero_mul, rnd_zero]; simp [toUsize]

theorem axisVal_hi (lim : F K × F K) {n : ℕ} (hm : n ≤ 2 ^ 53)
    (hd : ∃ d, 0 < d ∧ lim.2 - lim.1 = fin d) : axisVal lim n lim.2 = n - 1 := by
  obtain ⟨lo, hi⟩ := lim
  obtain ⟨d, hd0, hd⟩ := hd
  unfold axisVal
  dsimp only at *
  rw [hd, div_fin_ne _ hd0.ne', div_self hd0.ne', rnd_one, ofNat_eq _ (by omega), mul_fin, one_mul,
    rnd_nat _ (by omega)]
  simp only [toUsize, Nat.floor_natCast]
  rw [min_eq_left]
  unfold usizeMax; omega

/-- `cell_id` on a grid with sensible cell counts. -/
theorem cellId_eq (p : Profile) (g : CartGeom K) (hc : CellsOk g.cells) (pos : Pos K) :
    g.cellId p pos = .ok (if g.isInside pos then
      some (fun a => axisVal (g.limits a) (g.cells a) (pos a)) else none) := by
  unfold cellId
  cases h : g.isInside pos with
  | false => simp; rfl
  | true =>
    rw [axisIdx_eq p _ (hc 0).1 (hc 0).2, axisIdx_eq p _ (hc 1).1 (hc 1).2,
      axisIdx_eq p _ (hc 2).1 (hc 2).2]
    simp only [Bool.true_eq_false, if_false, if_true]
    change Except.ok (some _) = _
    congr 2
    funext a
    fin_cases a <;> rfl

theorem cellId_inB (p : Profile) (g : CartGeom K) (hc : CellsOk g.cells) {pos : Pos K} {c : CellId}
    (h : g.cellId p pos = .ok (some c)) : InB g.cells c := by
  rw [cellId_eq p g hc] at h
  split_ifs at h with hi
  · have hb := (isInside_iff g pos).1 hi
    simp only [Except.ok.injEq, Option.some.injEq] at h
    subst h
    intro a
    exact axisVal_lt _ (hc a).1 (hc a).2 (hb a).2.1 (hb a).2.2
  · simp at h

end
end CartGeom
end Up4
