import Verif.RealArith
import Mathlib.Data.Int.Log
import Mathlib.Analysis.Real.Pi.Bounds

set_option linter.unusedSectionVars false

/-!
# IEEE-754 binary64

`B64` is a copy of `ℝ` whose `Arith` instance rounds every result to the nearest binary64 number, ties to
even, with gradual underflow and overflow to infinity; `sqrt`, `sin`, `cos`, `atan2` are the correctly
rounded real functions (Rust guarantees this for `sqrt`; for the others it is a simplification — the
lawful theorems only use that `atan2` stays in `[-π, π]`).  It satisfies `LawfulArith`, so every theorem
of the form `[LawfulArith K] → …` holds for actual `f64` arithmetic.
-/

namespace Up4
namespace B64

/-- Round to the nearest integer, ties to even. -/
noncomputable def rne (t : ℝ) : ℤ :=
  if Int.fract t < 1 / 2 then ⌊t⌋
  else if 1 / 2 < Int.fract t then ⌊t⌋ + 1
  else if Even ⌊t⌋ then ⌊t⌋ else ⌊t⌋ + 1

theorem rne_ge (t : ℝ) : ⌊t⌋ ≤ rne t := by unfold rne; split_ifs <;> omega
theorem rne_le (t : ℝ) : rne t ≤ ⌊t⌋ + 1 := by unfold rne; split_ifs <;> omega

theorem rne_int (n : ℤ) : rne (n : ℝ) = n := by
  unfold rne; simp

theorem rne_mono {s t : ℝ} (h : s ≤ t) : rne s ≤ rne t := by
  have hf : ⌊s⌋ ≤ ⌊t⌋ := Int.floor_mono h
  rcases hf.lt_or_eq with hlt | heq
  · have := rne_le s; have := rne_ge t; omega
  · have hfr : Int.fract s ≤ Int.fract t := by
      have h1 := Int.floor_add_fract s
      have h2 := Int.floor_add_fract t
      rw [← heq] at h2
      linarith
    unfold rne
    rw [heq]
    split_ifs <;> first | omega | (exfalso; linarith)

/-- An integer closer than one half is the rounding. -/
theorem rne_eq {t : ℝ} {n : ℤ} (h : |t - n| < 1 / 2) : rne t = n := by
  rw [abs_lt] at h
  unfold rne
  have hfl : (⌊t⌋ = n ∧ Int.fract t < 1 / 2) ∨ (⌊t⌋ = n - 1 ∧ 1 / 2 < Int.fract t) := by
    rcases le_or_gt (n : ℝ) t with hc | hc
    · left
      have : ⌊t⌋ = n := by rw [Int.floor_eq_iff]; constructor <;> linarith
      refine ⟨this, ?_⟩
      have := Int.floor_add_fract t
      rw [‹⌊t⌋ = n›] at this; linarith
    · right
      have : ⌊t⌋ = n - 1 := by rw [Int.floor_eq_iff]; push_cast; constructor <;> linarith
      refine ⟨this, ?_⟩
      have := Int.floor_add_fract t
      rw [‹⌊t⌋ = n - 1›] at this; push_cast at this; linarith
  rcases hfl with ⟨h1, h2⟩ | ⟨h1, h2⟩
  · rw [if_pos h2, h1]
  · rw [if_neg (by linarith), if_pos h2, h1]; ring

/-- Exponent of the unit in the last place of `x > 0`: `2^(e-52)`, `e` the binary exponent, at least the
subnormal exponent. -/
noncomputable def ulpExp (x : ℝ) : ℤ := max (Int.log 2 x) (-1022) - 52

/-- Rounding of a positive number with unbounded exponent. -/
noncomputable def rpos (x : ℝ) : ℝ := rne (x / 2 ^ ulpExp x) * (2 : ℝ) ^ ulpExp x

/-- Round to nearest even in binary64, overflow to infinity. -/
noncomputable def rndPos (x : ℝ) : F ℝ := if 2 ^ (1024 : ℤ) ≤ rpos x then F.pinf else F.fin (rpos x)

/-- Binary64 rounding of a real number. -/
noncomputable def rnd (x : ℝ) : F ℝ :=
  if x = 0 then F.fin 0 else if 0 < x then rndPos x else (rndPos (-x)).neg

theorem two_pos' : (0 : ℝ) < 2 := by norm_num
theorem zp (k : ℤ) : (0 : ℝ) < 2 ^ k := zpow_pos two_pos' k

theorem log_le {x : ℝ} (hx : 0 < x) : (2 : ℝ) ^ Int.log 2 x ≤ x := by
  have := Int.zpow_log_le_self (b := 2) (r := x) (by norm_num) hx; simpa using this
theorem lt_log {x : ℝ} : x < (2 : ℝ) ^ (Int.log 2 x + 1) := by
  have := Int.lt_zpow_succ_log_self (b := 2) (by norm_num) x; simpa using this

theorem rpos_nonneg {x : ℝ} (hx : 0 < x) : 0 ≤ rpos x := by
  unfold rpos
  refine mul_nonneg ?_ (zp _).le
  have : (0 : ℤ) ≤ rne (x / 2 ^ ulpExp x) :=
    le_trans (Int.floor_nonneg.2 (div_nonneg hx.le (zp _).le)) (rne_ge _)
  exact_mod_cast this

/-- The upper end of the binade bounds the rounding. -/
theorem rpos_le_top {x : ℝ} : rpos x ≤ 2 ^ (ulpExp x + 53) := by
  unfold rpos
  have hlt : x / 2 ^ ulpExp x ≤ ((2 ^ 53 : ℤ) : ℝ) := by
    rw [div_le_iff₀ (zp _)]
    have h1 : x ≤ 2 ^ (Int.log 2 x + 1) := lt_log.le
    have h2 : (2 : ℝ) ^ (Int.log 2 x + 1) ≤ 2 ^ (ulpExp x + 53) :=
      zpow_le_zpow_right₀ (by norm_num) (by unfold ulpExp; omega)
    have h3 : (2 : ℝ) ^ (ulpExp x + 53) = ((2 ^ 53 : ℤ) : ℝ) * 2 ^ ulpExp x := by
      rw [zpow_add₀ (by norm_num)]; push_cast; norm_num; ring
    linarith
  have := rne_mono hlt
  rw [rne_int] at this
  have h3 : (2 : ℝ) ^ (ulpExp x + 53) = ((2 ^ 53 : ℤ) : ℝ) * 2 ^ ulpExp x := by
    rw [zpow_add₀ (by norm_num)]; push_cast; norm_num; ring
  rw [h3]
  exact mul_le_mul_of_nonneg_right (by exact_mod_cast this) (zp _).le

/-- In a normal binade the lower end bounds the rounding. -/
theorem le_rpos_bot {y : ℝ} (hy : 0 < y) (hn : -1022 ≤ Int.log 2 y) : (2 : ℝ) ^ Int.log 2 y ≤ rpos y := by
  unfold rpos
  have hu : ulpExp y = Int.log 2 y - 52 := by unfold ulpExp; omega
  have h3 : (2 : ℝ) ^ Int.log 2 y = ((2 ^ 52 : ℤ) : ℝ) * 2 ^ ulpExp y := by
    rw [hu, zpow_sub₀ (by norm_num)]; push_cast; norm_num; ring
  have hle : ((2 ^ 52 : ℤ) : ℝ) ≤ y / 2 ^ ulpExp y := by
    rw [le_div_iff₀ (zp _), ← h3]; exact log_le hy
  have := rne_mono hle
  rw [rne_int] at this
  rw [h3]
  exact mul_le_mul_of_nonneg_right (by exact_mod_cast this) (zp _).le

theorem rpos_mono {x y : ℝ} (hx : 0 < x) (h : x ≤ y) : rpos x ≤ rpos y := by
  have hy : 0 < y := lt_of_lt_of_le hx h
  have hlog : Int.log 2 x ≤ Int.log 2 y := Int.log_mono_right hx h
  by_cases hu : ulpExp x = ulpExp y
  · unfold rpos
    rw [hu]
    refine mul_le_mul_of_nonneg_right ?_ (zp _).le
    exact_mod_cast rne_mono (div_le_div_of_nonneg_right h (zp _).le)
  · have hn : -1022 ≤ Int.log 2 y := by unfold ulpExp at hu; omega
    have hlt : ulpExp x + 53 ≤ Int.log 2 y := by unfold ulpExp at hu ⊢; omega
    calc rpos x ≤ 2 ^ (ulpExp x + 53) := rpos_le_top
      _ ≤ 2 ^ Int.log 2 y := zpow_le_zpow_right₀ (by norm_num) hlt
      _ ≤ rpos y := le_rpos_bot hy hn

/-- Numbers `m·2^k` with `0 < m ≤ 2^53`, `k ≥ -1074` are fixed by the rounding. -/
theorem rpos_exact {m : ℕ} {k : ℤ} (hm : 0 < m) (hm' : m ≤ 2 ^ 53) (hk : -1074 ≤ k) :
    rpos ((m : ℝ) * 2 ^ k) = m * 2 ^ k := by
  have main : ∀ (m : ℕ) (k : ℤ), 0 < m → m < 2 ^ 53 → -1074 ≤ k → rpos ((m : ℝ) * 2 ^ k) = m * 2 ^ k := by
    intro m k hm hm' hk
    have hm0 : (0 : ℝ) < m := by exact_mod_cast hm
    have hx : 0 < (m : ℝ) * 2 ^ k := mul_pos hm0 (zp k)
    have hlog : Int.log 2 ((m : ℝ) * 2 ^ k) ≤ 52 + k := by
      by_contra hc
      have h1 : (2 : ℝ) ^ (53 + k) ≤ 2 ^ Int.log 2 ((m : ℝ) * 2 ^ k) :=
        zpow_le_zpow_right₀ (by norm_num) (by omega)
      have h2 := log_le hx
      have h3 : (m : ℝ) * 2 ^ k < 2 ^ (53 + k) := by
        rw [zpow_add₀ (by norm_num)]
        refine mul_lt_mul_of_pos_right ?_ (zp k)
        have : (m : ℝ) < ((2 ^ 53 : ℕ) : ℝ) := by exact_mod_cast hm'
        push_cast at this
        exact_mod_cast this
      linarith
    set u := ulpExp ((m : ℝ) * 2 ^ k) with hu
    have huk : u ≤ k := by rw [hu]; unfold ulpExp; omega
    obtain ⟨d, hd⟩ : ∃ d : ℕ, k = u + d := ⟨(k - u).toNat, by omega⟩
    have hint : (m : ℝ) * 2 ^ k / 2 ^ u = ((m * 2 ^ d : ℤ) : ℝ) := by
      rw [hd, zpow_add₀ (by norm_num)]
      have := (zp u).ne'
      push_cast
      rw [zpow_natCast]
      field_simp
    unfold rpos
    rw [← hu, hint, rne_int, ← hint, div_mul_cancel₀ _ (zp u).ne']
  rcases Nat.lt_or_ge m (2 ^ 53) with h | h
  · exact main m k hm h hk
  · have : m = 2 ^ 53 := by omega
    subst this
    have := main (2 ^ 52) (k + 1) (by norm_num) (by norm_num) (by omega)
    have e : ((2 ^ 52 : ℕ) : ℝ) * 2 ^ (k + 1) = ((2 ^ 53 : ℕ) : ℝ) * 2 ^ k := by
      rw [zpow_add₀ (by norm_num)]; push_cast; norm_num; ring
    rw [e] at this
    exact this

/-- The result of rounding is of that form. -/
theorem rpos_form {x : ℝ} (hx : 0 < x) :
    ∃ (m : ℕ) (k : ℤ), m ≤ 2 ^ 53 ∧ -1074 ≤ k ∧ rpos x = m * 2 ^ k := by
  have h0 : (0 : ℤ) ≤ rne (x / 2 ^ ulpExp x) :=
    le_trans (Int.floor_nonneg.2 (div_nonneg hx.le (zp _).le)) (rne_ge _)
  refine ⟨(rne (x / 2 ^ ulpExp x)).toNat, ulpExp x, ?_, by unfold ulpExp; omega, ?_⟩
  · have h := rpos_le_top (x := x)
    unfold rpos at h
    rw [zpow_add₀ (by norm_num), mul_comm ((2 : ℝ) ^ ulpExp x)] at h
    have := le_of_mul_le_mul_right h (zp _)
    have h53 : rne (x / 2 ^ ulpExp x) ≤ 2 ^ 53 := by exact_mod_cast this
    omega
  · unfold rpos
    congr 1
    have : (((rne (x / 2 ^ ulpExp x)).toNat : ℤ) : ℝ) = (rne (x / 2 ^ ulpExp x) : ℝ) := by
      rw [Int.toNat_of_nonneg h0]
    exact_mod_cast this.symm

theorem rndPos_ne_nan (x : ℝ) : rndPos x ≠ F.nan := by unfold rndPos; split_ifs <;> simp

theorem rndPos_nonneg {x : ℝ} (hx : 0 < x) : F.fin 0 ≤ rndPos x := by
  unfold rndPos; split_ifs
  · rfl
  · rw [F.le_fin]; exact rpos_nonneg hx

theorem rndPos_mono {x y : ℝ} (hx : 0 < x) (h : x ≤ y) : rndPos x ≤ rndPos y := by
  have := rpos_mono hx h
  unfold rndPos
  split_ifs with h1 h2
  · rfl
  · exact absurd (h1.trans this) h2
  · rfl
  · rw [F.le_fin]; exact this

theorem neg_ne_nan {a : F ℝ} (h : a ≠ F.nan) : a.neg ≠ F.nan := by
  cases a <;> simp_all [F.neg]

theorem neg_le_neg' {a b : F ℝ} (h : a ≤ b) : b.neg ≤ a.neg := by
  cases a <;> cases b <;> simp_all [F.neg]

theorem rnd_neg (x : ℝ) : rnd (-x) = (rnd x).neg := by
  unfold rnd
  rcases lt_trichotomy x 0 with h | h | h
  · rw [if_neg (by linarith), if_pos (by linarith), if_neg h.ne, if_neg (by linarith)]
    cases rndPos (-x) <;> simp [F.neg]
  · subst h; simp [F.neg]
  · rw [if_neg (by linarith), if_neg (by linarith), if_neg h.ne', if_pos h, neg_neg]

theorem rnd_mono {x y : ℝ} (h : x ≤ y) : rnd x ≤ rnd y := by
  unfold rnd
  rcases lt_trichotomy x 0 with hx | hx | hx <;> rcases lt_trichotomy y 0 with hy | hy | hy
  · rw [if_neg hx.ne, if_neg (by linarith), if_neg hy.ne, if_neg (by linarith)]
    exact neg_le_neg' (rndPos_mono (by linarith) (by linarith))
  · rw [if_neg hx.ne, if_neg (by linarith), if_pos hy]
    have := neg_le_neg' (rndPos_nonneg (x := -x) (by linarith))
    simpa [F.neg] using this
  · rw [if_neg hx.ne, if_neg (by linarith), if_neg hy.ne', if_pos hy]
    have h1 := neg_le_neg' (rndPos_nonneg (x := -x) (by linarith))
    have h2 := rndPos_nonneg hy
    refine F.le_trans' h1 ?_
    simpa [F.neg] using h2
  · linarith
  · rw [if_pos hx, if_pos hy, F.le_fin]
  · rw [if_pos hx, if_neg hy.ne', if_pos hy]; exact rndPos_nonneg hy
  · linarith
  · linarith
  · rw [if_neg hx.ne', if_pos hx, if_neg hy.ne', if_pos hy]; exact rndPos_mono hx h

theorem rnd_exact {m : ℕ} {k : ℤ} (hm' : m ≤ 2 ^ 53) (hk : -1074 ≤ k)
    (hb : (m : ℝ) * 2 ^ k < 2 ^ (1024 : ℤ)) : rnd ((m : ℝ) * 2 ^ k) = F.fin ((m : ℝ) * 2 ^ k) := by
  rcases Nat.eq_zero_or_pos m with rfl | hm
  · simp [rnd]
  · have hx : 0 < (m : ℝ) * 2 ^ k := mul_pos (by exact_mod_cast hm) (zp k)
    unfold rnd rndPos
    rw [if_neg hx.ne', if_pos hx, rpos_exact hm hm' hk, if_neg (not_le.2 hb)]

theorem rnd_idem {x y : ℝ} (h : rnd x = F.fin y) : rnd y = F.fin y := by
  have pos : ∀ x y, 0 < x → rndPos x = F.fin y → rnd y = F.fin y := by
    intro x y hx h
    obtain ⟨m, k, h1, h2, h3⟩ := rpos_form hx
    unfold rndPos at h
    split_ifs at h with hb
    simp only [F.fin.injEq] at h
    rw [← h, h3]
    exact rnd_exact h1 h2 (by rw [← h3]; exact not_le.1 hb)
  rcases lt_trichotomy x 0 with hx | hx | hx
  · have h' : rnd (-x) = F.fin (-y) := by rw [rnd_neg, h]; rfl
    have hp : rndPos (-x) = F.fin (-y) := by
      unfold rnd at h'
      rwa [if_neg (by linarith), if_pos (by linarith)] at h'
    have := pos (-x) (-y) (by linarith) hp
    have h2 := rnd_neg (-y)
    rw [neg_neg, this] at h2
    rw [h2]; simp [F.neg]
  · subst hx
    have : rnd 0 = F.fin 0 := by simp [rnd]
    rw [this] at h; simp only [F.fin.injEq] at h; rw [← h]; exact this
  · refine pos x y hx ?_
    unfold rnd at h
    rwa [if_neg hx.ne', if_pos hx] at h

/-- How to evaluate the rounding on a concrete number: exhibit the nearest `m·2^k`. -/
theorem rnd_eq {x : ℝ} {m : ℕ} {k : ℤ} (hm2 : m < 2 ^ 53) (hk : -1074 ≤ k)
    (hk2 : k ≤ 970) (hx1 : (2 : ℝ) ^ (52 + k) ≤ x) (hx2 : x < 2 ^ (53 + k))
    (hnear : |x / 2 ^ k - m| < 1 / 2) : rnd x = F.fin ((m : ℝ) * 2 ^ k) := by
  have hx : 0 < x := lt_of_lt_of_le (zp _) hx1
  have hlog : Int.log 2 x = 52 + k := by
    apply le_antisymm
    · by_contra hc
      have h1 : (2 : ℝ) ^ (53 + k) ≤ 2 ^ Int.log 2 x := zpow_le_zpow_right₀ (by norm_num) (by omega)
      have := log_le hx
      linarith
    · by_contra hc
      have h1 : (2 : ℝ) ^ (Int.log 2 x + 1) ≤ 2 ^ (52 + k) := zpow_le_zpow_right₀ (by norm_num) (by omega)
      have := lt_log (x := x)
      linarith
  have hu : ulpExp x = k := by unfold ulpExp; omega
  have hr : rpos x = m * 2 ^ k := by
    unfold rpos
    rw [hu, rne_eq (n := (m : ℤ)) (by push_cast; exact hnear)]
    push_cast; rfl
  have hb : (m : ℝ) * 2 ^ k < 2 ^ (1024 : ℤ) := by
    calc (m : ℝ) * 2 ^ k < 2 ^ (53 : ℤ) * 2 ^ k := by
          refine mul_lt_mul_of_pos_right ?_ (zp k)
          have : (m : ℝ) < ((2 ^ 53 : ℕ) : ℝ) := by exact_mod_cast hm2
          push_cast at this
          exact_mod_cast this
      _ = 2 ^ (53 + k) := (zpow_add₀ (by norm_num) _ _).symm
      _ ≤ 2 ^ (1024 : ℤ) := zpow_le_zpow_right₀ (by norm_num) (by omega)
  unfold rnd rndPos
  rw [if_neg hx.ne', if_pos hx, hr, if_neg (not_le.2 hb)]

/-- `std::f64::consts::PI`. -/
noncomputable def pi : ℝ := 884279719003555 / 281474976710656

theorem rnd_pi : rnd Real.pi = F.fin pi := by
  have h1 := Real.pi_gt_d20
  have h2 := Real.pi_lt_d20
  have := rnd_eq (x := Real.pi) (m := 7074237752028440) (k := -51) (by norm_num) (by norm_num)
    (by norm_num) (by norm_num; linarith) (by norm_num; linarith) (by
      rw [abs_lt]
      have e : (2 : ℝ) ^ (-51 : ℤ) = 1 / 2251799813685248 := by norm_num
      rw [e]
      constructor
      · push_cast; norm_num; norm_num at h1; linarith
      · push_cast; norm_num; norm_num at h2; linarith)
  rw [this]
  congr 1
  unfold pi
  norm_num

/-- `f64::MAX = (2^53 - 1)·2^971`. -/
noncomputable def max : ℝ := (2 ^ 53 - 1) * 2 ^ (971 : ℤ)

theorem max_pos : 0 < max := mul_pos (by norm_num) (zp _)

/-- Every finite binary64 number lies between `-f64::MAX` and `f64::MAX`. -/
theorem abs_le_max {x : ℝ} (h : rnd x = F.fin x) : |x| ≤ max := by
  have pos : ∀ x, 0 < x → rndPos x = F.fin x → x ≤ max := by
    intro x hx h
    unfold rndPos at h
    split_ifs at h with hb
    simp only [F.fin.injEq] at h
    rw [h] at hb
    rw [not_le] at hb
    by_contra hc
    rw [not_le] at hc
    -- `x` has the top exponent, hence is an integer multiple of `2^971`
    have hlo : (2 : ℝ) ^ (1023 : ℤ) ≤ x := by
      refine le_trans ?_ hc.le
      unfold max
      have e : (2 : ℝ) ^ (1023 : ℤ) = 2 ^ (52 : ℤ) * 2 ^ (971 : ℤ) := by rw [← zpow_add₀ (by norm_num)]; norm_num
      rw [e]
      exact mul_le_mul_of_nonneg_right (by norm_num) (zp _).le
    have hlog : Int.log 2 x = 1023 := by
      apply le_antisymm
      · by_contra h1
        have h2 : (2 : ℝ) ^ (1024 : ℤ) ≤ 2 ^ Int.log 2 x := zpow_le_zpow_right₀ (by norm_num) (by omega)
        have := log_le hx
        linarith
      · by_contra h1
        have h2 : (2 : ℝ) ^ (Int.log 2 x + 1) ≤ 2 ^ (1023 : ℤ) := zpow_le_zpow_right₀ (by norm_num) (by omega)
        have := lt_log (x := x)
        linarith
    have hu : ulpExp x = 971 := by unfold ulpExp; omega
    unfold rpos at h
    rw [hu] at h
    set n := rne (x / 2 ^ (971 : ℤ)) with hn
    have h53 : (2 : ℝ) ^ (1024 : ℤ) = 2 ^ 53 * 2 ^ (971 : ℤ) := by
      have : (2 : ℝ) ^ (1024 : ℤ) = 2 ^ (53 : ℤ) * 2 ^ (971 : ℤ) := by rw [← zpow_add₀ (by norm_num)]; norm_num
      have h5 : (2 : ℝ) ^ (53 : ℤ) = 2 ^ 53 := by norm_num
      rw [this, h5]
    rw [← h, h53] at hb
    have h1 := lt_of_mul_lt_mul_right hb (zp _).le
    rw [← h] at hc
    unfold max at hc
    have h2 := lt_of_mul_lt_mul_right hc (zp _).le
    have h3 : n < 2 ^ 53 := by exact_mod_cast h1
    have h4 : (2 ^ 53 - 1 : ℤ) < n := by exact_mod_cast h2
    omega
  rcases lt_trichotomy x 0 with hx | hx | hx
  · have hn : rnd (-x) = F.fin (-x) := by rw [rnd_neg, h]; rfl
    have hp : rndPos (-x) = F.fin (-x) := by
      unfold rnd at hn; rwa [if_neg (by linarith), if_pos (by linarith)] at hn
    rw [abs_of_neg hx]; exact pos _ (by linarith) hp
  · subst hx; simpa using max_pos.le
  · have hp : rndPos x = F.fin x := by
      unfold rnd at h; rwa [if_neg hx.ne', if_pos hx] at h
    rw [abs_of_pos hx]; exact pos _ hx hp

end B64

/-- Real numbers carrying binary64 arithmetic. -/
def B64 : Type := ℝ

noncomputable instance : Field B64 := inferInstanceAs (Field ℝ)
noncomputable instance : LinearOrder B64 := inferInstanceAs (LinearOrder ℝ)
instance : IsStrictOrderedRing B64 := inferInstanceAs (IsStrictOrderedRing ℝ)
noncomputable instance : FloorRing B64 := inferInstanceAs (FloorRing ℝ)

noncomputable instance : Arith B64 where
  rnd x := B64.rnd x
  sqrtK x := B64.rnd (Real.sqrt x)
  sinK x := B64.rnd (Real.sin x)
  cosK x := B64.rnd (Real.cos x)
  atan2K y x := B64.rnd (Complex.arg ⟨x, y⟩)
  piK := B64.pi
  maxK := B64.max

/-- Binary64 arithmetic satisfies every law the rounded theorems use. -/
instance : LawfulArith B64 where
  rnd_ne_nan x := by
    change B64.rnd x ≠ F.nan
    unfold B64.rnd
    split_ifs
    · simp
    · exact B64.rndPos_ne_nan _
    · exact B64.neg_ne_nan (B64.rndPos_ne_nan (-x))
  rnd_mono x y h := B64.rnd_mono h
  rnd_neg x := B64.rnd_neg x
  rnd_idem x y h := B64.rnd_idem h
  rnd_dyadic m k hm hk := by
    have hb : ((m : ℝ) * 2 ^ (-(k : ℤ))) < 2 ^ (1024 : ℤ) := by
      have h1 : (2 : ℝ) ^ (-(k : ℤ)) ≤ 1 := zpow_le_one_of_nonpos₀ (by norm_num) (by omega)
      have h2 : (m : ℝ) ≤ ((2 ^ 53 : ℕ) : ℝ) := by exact_mod_cast hm
      have h3 : (m : ℝ) * 2 ^ (-(k : ℤ)) ≤ m * 1 := mul_le_mul_of_nonneg_left h1 (Nat.cast_nonneg m)
      have h4 : (((2 ^ 53 : ℕ) : ℝ)) < 2 ^ (1024 : ℤ) := by
        have : (2 : ℝ) ^ (53 : ℤ) < 2 ^ (1024 : ℤ) := zpow_lt_zpow_right₀ (by norm_num) (by norm_num)
        refine lt_of_eq_of_lt ?_ this
        push_cast; norm_num
      linarith
    have := B64.rnd_exact (m := m) (k := -(k : ℤ)) hm (by omega) hb
    have e : (m : ℝ) * 2 ^ (-(k : ℤ)) = (m : ℝ) / 2 ^ k := by
      rw [zpow_neg, zpow_natCast]; rfl
    rw [e] at this
    exact this
  sqrt_nonneg x _ := by
    have := B64.rnd_mono (Real.sqrt_nonneg x)
    have h0 : B64.rnd 0 = F.fin 0 := by simp [B64.rnd]
    rw [h0] at this
    exact this
  sqrt_mono x y _ h := B64.rnd_mono (Real.sqrt_le_sqrt h)
  sqrt_zero := by
    change B64.rnd (Real.sqrt 0) = F.fin 0
    simp [B64.rnd]
  pi_pos := by change (0 : ℝ) < B64.pi; unfold B64.pi; norm_num
  max_pos := B64.max_pos
  pi_le := by change B64.pi ≤ (4 : ℝ); unfold B64.pi; norm_num
  atan2_range y x := by
    have h1 := B64.rnd_mono (Complex.arg_le_pi (⟨x, y⟩ : ℂ))
    have h2 := B64.rnd_mono (Complex.neg_pi_lt_arg (⟨x, y⟩ : ℂ)).le
    rw [B64.rnd_pi] at h1
    rw [B64.rnd_neg, B64.rnd_pi] at h2
    change ∃ t : ℝ, B64.rnd (Complex.arg ⟨x, y⟩) = F.fin t ∧ -B64.pi ≤ t ∧ t ≤ B64.pi
    cases h : B64.rnd (Complex.arg ⟨x, y⟩) with
    | nan => rw [h] at h1; simp at h1
    | ninf => rw [h] at h2; simp [F.neg] at h2
    | pinf => rw [h] at h1; simp at h1
    | fin t =>
      rw [h] at h1 h2
      exact ⟨t, rfl, by simpa [F.neg] using h2, by simpa using h1⟩

end Up4
