import Mathlib.Algebra.Order.Field.Basic
import Mathlib.Algebra.Order.Floor.Ring
import Mathlib.Algebra.Order.Floor.Semiring
import Mathlib.Data.Nat.Cast.Order.Field
import Mathlib.Tactic.Linarith
import Mathlib.Tactic.Ring
import Mathlib.Tactic.FieldSimp
import Mathlib.Tactic.Positivity
import Mathlib.Tactic.NormNum

/-!
# The `f64` model

`F K` is the value set of a Rust `f64`: NaN, the two infinities, and finite values taken from an
ordered field `K`.  Each arithmetic operation computes exactly in `K` and then rounds with
`Arith.rnd`.  `LawfulArith` states what we use about rounding (true of IEEE-754 binary64, see
`Verif/Binary64.lean`); `ExactArith` is exact real arithmetic (instance on `ℝ` in `Verif/RealArith.lean`).

Simplification: there is one zero (read it as `+0.0`), and one NaN.
-/

set_option linter.unusedSectionVars false

namespace Up4

/-- Values of a Rust `f64`. -/
inductive F (K : Type) where
  | nan
  | ninf
  | pinf
  | fin (x : K)
deriving DecidableEq, Repr

/-- Rounding and the math-library functions the code calls (`f64::sqrt`, `sin_cos`, `atan2`). -/
class Arith (K : Type) where
  /-- rounding of an exact result to the nearest `f64` -/
  rnd : K → F K
  /-- `f64::sqrt` on finite nonnegative arguments -/
  sqrtK : K → F K
  /-- `f64::sin` on finite arguments -/
  sinK : K → F K
  /-- `f64::cos` on finite arguments -/
  cosK : K → F K
  /-- `f64::atan2` on finite arguments (`y`, then `x`) -/
  atan2K : K → K → F K
  /-- `std::f64::consts::PI` -/
  piK : K
  /-- `f64::MAX` -/
  maxK : K

namespace F

variable {K : Type}

/-- `f64::is_nan`. -/
def isNaN : F K → Bool
  | nan => true
  | _ => false

/-- The value is an ordinary finite number. -/
def isFin : F K → Bool
  | fin _ => true
  | _ => false

/-- IEEE `<=`: false if either side is NaN. -/
def leB [LE K] [DecidableLE K] : F K → F K → Bool
  | nan, _ => false
  | _, nan => false
  | ninf, _ => true
  | _, pinf => true
  | fin a, fin b => decide (a ≤ b)
  | pinf, _ => false
  | fin _, ninf => false

/-- IEEE `<`: false if either side is NaN. -/
def ltB [LT K] [DecidableLT K] : F K → F K → Bool
  | nan, _ => false
  | _, nan => false
  | ninf, ninf => false
  | ninf, _ => true
  | pinf, _ => false
  | fin _, pinf => true
  | fin a, fin b => decide (a < b)
  | fin _, ninf => false

/-- IEEE `==`: false if either side is NaN. -/
def eqB [DecidableEq K] : F K → F K → Bool
  | nan, _ => false
  | ninf, ninf => true
  | pinf, pinf => true
  | fin a, fin b => decide (a = b)
  | _, _ => false

instance [LinearOrder K] : LE (F K) := ⟨fun a b => leB a b = true⟩
instance [LinearOrder K] : LT (F K) := ⟨fun a b => ltB a b = true⟩
instance [LinearOrder K] (a b : F K) : Decidable (a ≤ b) := inferInstanceAs (Decidable (leB a b = true))
instance [LinearOrder K] (a b : F K) : Decidable (a < b) := inferInstanceAs (Decidable (ltB a b = true))

section ops
variable [Field K] [LinearOrder K] [Arith K]

/-- Unary minus (exact). -/
def neg : F K → F K
  | nan => nan
  | ninf => pinf
  | pinf => ninf
  | fin x => fin (-x)

/-- IEEE addition. -/
def add : F K → F K → F K
  | nan, _ => nan
  | _, nan => nan
  | pinf, ninf => nan
  | ninf, pinf => nan
  | pinf, _ => pinf
  | _, pinf => pinf
  | ninf, _ => ninf
  | _, ninf => ninf
  | fin a, fin b => Arith.rnd (a + b)

/-- IEEE subtraction. -/
def sub (a b : F K) : F K := add a (neg b)

/-- An infinity of the sign of `x` (`0` counts as NaN: `0 * inf`). -/
def infTimes (x : K) : F K := if 0 < x then pinf else if x < 0 then ninf else nan

/-- IEEE multiplication. -/
def mul : F K → F K → F K
  | nan, _ => nan
  | _, nan => nan
  | pinf, pinf => pinf
  | ninf, ninf => pinf
  | pinf, ninf => ninf
  | ninf, pinf => ninf
  | pinf, fin x => infTimes x
  | fin x, pinf => infTimes x
  | ninf, fin x => infTimes (-x)
  | fin x, ninf => infTimes (-x)
  | fin a, fin b => Arith.rnd (a * b)

/-- IEEE division (`+0` is the only zero). -/
def div : F K → F K → F K
  | nan, _ => nan
  | _, nan => nan
  | pinf, pinf => nan
  | pinf, ninf => nan
  | ninf, pinf => nan
  | ninf, ninf => nan
  | pinf, fin b => if b < 0 then ninf else pinf
  | ninf, fin b => if b < 0 then pinf else ninf
  | fin _, pinf => fin 0
  | fin _, ninf => fin 0
  | fin a, fin b => if b = 0 then infTimes a else Arith.rnd (a / b)

instance : Neg (F K) := ⟨neg⟩
instance : Add (F K) := ⟨add⟩
instance : Sub (F K) := ⟨sub⟩
instance : Mul (F K) := ⟨mul⟩
instance : Div (F K) := ⟨div⟩
instance : Zero (F K) := ⟨fin 0⟩
instance : One (F K) := ⟨fin 1⟩

/-- `f64::abs`. -/
def abs : F K → F K
  | nan => nan
  | ninf => pinf
  | pinf => pinf
  | fin x => fin |x|

/-- `f64::sqrt`. -/
def sqrt : F K → F K
  | nan => nan
  | ninf => nan
  | pinf => pinf
  | fin x => if x < 0 then nan else Arith.sqrtK x

/-- `f64::sin`. -/
def sin : F K → F K
  | fin x => Arith.sinK x
  | _ => nan

/-- `f64::cos`. -/
def cos : F K → F K
  | fin x => Arith.cosK x
  | _ => nan

/-- `f64::atan2` for finite arguments; for infinite ones the model returns an arbitrary finite value
`0` (the code never distinguishes them: an infinite coordinate has an infinite radius). -/
def atan2 : F K → F K → F K
  | nan, _ => nan
  | _, nan => nan
  | fin y, fin x => Arith.atan2K y x
  | _, _ => fin 0

/-- `std::f64::consts::PI`. -/
def pi : F K := fin Arith.piK

/-- `n as f64` for `n : usize`. -/
def ofNat (n : ℕ) : F K := Arith.rnd (n : K)

/-- A decimal literal in the source, e.g. `0.01`. -/
def lit (q : K) : F K := Arith.rnd q

/-- `x.powi(2)`. -/
def sq (a : F K) : F K := a * a

end ops

section floor
variable [Field K] [LinearOrder K] [IsStrictOrderedRing K] [FloorRing K]

/-- `usize::MAX` on the 64-bit targets the package is built for. -/
def usizeMax : ℕ := 2 ^ 64 - 1

/-- `x as usize`: truncate towards zero, saturate, NaN to `0`. -/
def toUsize : F K → ℕ
  | nan => 0
  | ninf => 0
  | pinf => usizeMax
  | fin x => min ⌊x⌋₊ usizeMax

/-- `f64::floor` (exact: the floor of an `f64` is an `f64`). -/
def floor : F K → F K
  | fin x => fin (⌊x⌋ : K)
  | a => a

end floor
end F

/-- What the proofs use about `f64` rounding.  All of it holds for IEEE-754 binary64 with
round-to-nearest-even and a correctly rounded `sqrt` (`Verif/Binary64.lean`). -/
class LawfulArith (K : Type) [Field K] [LinearOrder K] [IsStrictOrderedRing K] [Arith K] : Prop where
  rnd_ne_nan : ∀ x : K, Arith.rnd x ≠ F.nan
  rnd_mono : ∀ x y : K, x ≤ y → Arith.rnd x ≤ Arith.rnd y
  rnd_neg : ∀ x : K, Arith.rnd (-x) = - Arith.rnd x
  rnd_idem : ∀ x y : K, Arith.rnd x = F.fin y → Arith.rnd y = F.fin y
  rnd_dyadic : ∀ m k : ℕ, m ≤ 2 ^ 53 → k ≤ 1000 →
    Arith.rnd ((m : K) / 2 ^ k) = F.fin ((m : K) / 2 ^ k)
  sqrt_nonneg : ∀ x : K, 0 ≤ x → F.fin 0 ≤ Arith.sqrtK x
  sqrt_mono : ∀ x y : K, 0 ≤ x → x ≤ y → Arith.sqrtK x ≤ Arith.sqrtK y
  sqrt_zero : Arith.sqrtK (0 : K) = F.fin 0
  pi_pos : (0 : K) < Arith.piK
  pi_le : (Arith.piK : K) ≤ 4
  max_pos : (0 : K) < Arith.maxK
  atan2_range : ∀ y x : K, ∃ t, Arith.atan2K y x = F.fin t ∧ -Arith.piK ≤ t ∧ t ≤ Arith.piK

/-- Exact arithmetic: no rounding, exact square roots, exact trigonometry. -/
class ExactArith (K : Type) [Field K] [LinearOrder K] [IsStrictOrderedRing K] [Arith K] : Prop where
  rnd_eq : ∀ x : K, Arith.rnd x = F.fin x
  sqrt_eq : ∀ x : K, 0 ≤ x → ∃ s, Arith.sqrtK x = F.fin s ∧ 0 ≤ s ∧ s * s = x
  sin_cos : ∀ t : K, ∃ s c, Arith.sinK t = F.fin s ∧ Arith.cosK t = F.fin c ∧ s * s + c * c = 1
  sin_zero : Arith.sinK (0 : K) = F.fin 0
  cos_zero : Arith.cosK (0 : K) = F.fin 1
  pi_pos' : (0 : K) < Arith.piK
  atan2_range' : ∀ y x : K, ∃ t, Arith.atan2K y x = F.fin t ∧ -Arith.piK ≤ t ∧ t ≤ Arith.piK
  atan2_spec : ∀ y x t s c : K, Arith.atan2K y x = F.fin t → Arith.sinK t = F.fin s →
    Arith.cosK t = F.fin c → ∀ r, 0 ≤ r → r * r = x * x + y * y → x = r * c ∧ y = r * s

namespace F

variable {K : Type}

/-! ### Basic lemmas -/

section order
variable [LinearOrder K]

@[simp] theorem le_fin (a b : K) : (fin a ≤ fin b) ↔ a ≤ b := by
  change leB _ _ = true ↔ _; simp [leB]
@[simp] theorem lt_fin (a b : K) : (fin a < fin b) ↔ a < b := by
  change ltB _ _ = true ↔ _; simp [ltB]
@[simp] theorem nan_le (a : F K) : ¬ (nan ≤ a) := by change ¬ (leB _ _ = true); simp [leB]
@[simp] theorem le_nan (a : F K) : ¬ (a ≤ nan) := by
  change ¬ (leB _ _ = true); cases a <;> simp [leB]
@[simp] theorem nan_lt (a : F K) : ¬ (nan < a) := by change ¬ (ltB _ _ = true); simp [ltB]
@[simp] theorem lt_nan (a : F K) : ¬ (a < nan) := by
  change ¬ (ltB _ _ = true); cases a <;> simp [ltB]
@[simp] theorem ninf_le_fin (a : K) : (ninf : F K) ≤ fin a := rfl
@[simp] theorem ninf_le_pinf : (ninf : F K) ≤ pinf := rfl
@[simp] theorem ninf_le_ninf : (ninf : F K) ≤ ninf := rfl
@[simp] theorem fin_le_pinf (a : K) : (fin a : F K) ≤ pinf := rfl
@[simp] theorem pinf_le_pinf : (pinf : F K) ≤ pinf := rfl
@[simp] theorem not_pinf_le_fin (a : K) : ¬ ((pinf : F K) ≤ fin a) := by
  change ¬ (leB _ _ = true); simp [leB]
@[simp] theorem not_pinf_le_ninf : ¬ ((pinf : F K) ≤ ninf) := by
  change ¬ (leB _ _ = true); simp [leB]
@[simp] theorem not_fin_le_ninf (a : K) : ¬ ((fin a : F K) ≤ ninf) := by
  change ¬ (leB _ _ = true); simp [leB]
@[simp] theorem ninf_lt_fin (a : K) : (ninf : F K) < fin a := rfl
@[simp] theorem ninf_lt_pinf : (ninf : F K) < pinf := rfl
@[simp] theorem fin_lt_pinf (a : K) : (fin a : F K) < pinf := rfl
@[simp] theorem not_pinf_lt (a : F K) : ¬ ((pinf : F K) < a) := by
  change ¬ (ltB _ _ = true); cases a <;> simp [ltB]
@[simp] theorem not_lt_ninf (a : F K) : ¬ (a < (ninf : F K)) := by
  change ¬ (ltB _ _ = true); cases a <;> simp [ltB]

theorem le_trans' {a b c : F K} (h1 : a ≤ b) (h2 : b ≤ c) : a ≤ c := by
  cases a <;> cases b <;> cases c <;> simp_all
  exact le_trans h1 h2

theorem le_refl' {a : F K} (h : a ≠ nan) : a ≤ a := by cases a <;> simp_all

theorem le_antisymm' {a b : F K} (h1 : a ≤ b) (h2 : b ≤ a) : a = b := by
  cases a <;> cases b <;> simp_all
  exact le_antisymm h1 h2

theorem le_of_lt' {a b : F K} (h : a < b) : a ≤ b := by
  cases a <;> cases b <;> simp_all
  exact le_of_lt h

theorem lt_of_lt_of_le' {a b c : F K} (h1 : a < b) (h2 : b ≤ c) : a < c := by
  cases a <;> cases b <;> cases c <;> simp_all
  exact lt_of_lt_of_le h1 h2

theorem lt_of_le_of_lt' {a b c : F K} (h1 : a ≤ b) (h2 : b < c) : a < c := by
  cases a <;> cases b <;> cases c <;> simp_all
  exact lt_of_le_of_lt h1 h2

theorem not_lt_of_le' {a b : F K} (h : a ≤ b) : ¬ b < a := by
  cases a <;> cases b <;> simp_all

theorem lt_or_le' {a b : F K} (ha : a ≠ nan) (hb : b ≠ nan) : a < b ∨ b ≤ a := by
  cases a <;> cases b <;> simp_all
  exact lt_or_ge _ _

theorem not_le' {a b : F K} (ha : a ≠ nan) (hb : b ≠ nan) : ¬ a ≤ b ↔ b < a := by
  cases a <;> cases b <;> simp_all

end order

@[simp] theorem isNaN_nan : (nan : F K).isNaN = true := rfl
@[simp] theorem isNaN_ninf : (ninf : F K).isNaN = false := rfl
@[simp] theorem isNaN_pinf : (pinf : F K).isNaN = false := rfl
@[simp] theorem isNaN_fin (x : K) : (fin x : F K).isNaN = false := rfl
theorem isNaN_iff (a : F K) : a.isNaN = true ↔ a = nan := by cases a <;> simp [isNaN]

section opl
variable [Field K] [LinearOrder K] [Arith K]

theorem zero_def : (0 : F K) = fin 0 := rfl
theorem one_def : (1 : F K) = fin 1 := rfl
theorem add_def (a b : F K) : a + b = add a b := rfl
theorem sub_def (a b : F K) : a - b = add a (neg b) := rfl
theorem mul_def (a b : F K) : a * b = mul a b := rfl
theorem div_def (a b : F K) : a / b = div a b := rfl
theorem neg_def (a : F K) : -a = neg a := rfl
@[simp] theorem neg_fin (a : K) : -(fin a : F K) = fin (-a) := rfl
@[simp] theorem neg_pinf : -(pinf : F K) = ninf := rfl
@[simp] theorem neg_ninf : -(ninf : F K) = pinf := rfl
@[simp] theorem neg_nan : -(nan : F K) = nan := rfl
@[simp] theorem add_fin (a b : K) : (fin a + fin b : F K) = Arith.rnd (a + b) := rfl
theorem sub_fin (a b : K) : (fin a - fin b : F K) = Arith.rnd (a - b) := by
  rw [sub_eq_add_neg]; rfl
@[simp] theorem mul_fin (a b : K) : (fin a * fin b : F K) = Arith.rnd (a * b) := rfl
theorem div_fin (a b : K) : (fin a / fin b : F K) = if b = 0 then infTimes a else Arith.rnd (a / b) := rfl
theorem div_fin_ne (a : K) {b : K} (hb : b ≠ 0) : (fin a / fin b : F K) = Arith.rnd (a / b) := by
  rw [div_fin, if_neg hb]
@[simp] theorem nan_add (a : F K) : nan + a = nan := by cases a <;> rfl
@[simp] theorem add_nan (a : F K) : a + nan = nan := by cases a <;> rfl
@[simp] theorem nan_sub (a : F K) : nan - a = nan := by cases a <;> rfl
@[simp] theorem sub_nan (a : F K) : a - nan = nan := by cases a <;> rfl
@[simp] theorem nan_mul (a : F K) : nan * a = nan := by cases a <;> rfl
@[simp] theorem mul_nan (a : F K) : a * nan = nan := by cases a <;> rfl
@[simp] theorem nan_div (a : F K) : nan / a = nan := by cases a <;> rfl
@[simp] theorem div_nan (a : F K) : a / nan = nan := by cases a <;> rfl
end opl

/-! ### Consequences of lawful rounding -/

section lawful
variable [Field K] [LinearOrder K] [IsStrictOrderedRing K] [Arith K] [LawfulArith K]

open LawfulArith

theorem rnd_nat (n : ℕ) (h : n ≤ 2 ^ 53) : Arith.rnd (n : K) = fin (n : K) := by
  have := rnd_dyadic (K := K) n 0 h (by norm_num); simpa using this

theorem rnd_half : Arith.rnd (1 / 2 : K) = fin (1 / 2 : K) := by
  have := rnd_dyadic (K := K) 1 1 (by norm_num) (by norm_num); simpa using this

theorem ofNat_eq (n : ℕ) (h : n ≤ 2 ^ 53) : (ofNat n : F K) = fin (n : K) := rnd_nat n h

@[simp] theorem rnd_zero : Arith.rnd (0 : K) = fin 0 := by
  have := rnd_nat (K := K) 0 (by norm_num); simpa using this
@[simp] theorem rnd_one : Arith.rnd (1 : K) = fin 1 := by
  have := rnd_nat (K := K) 1 (by norm_num); simpa using this

/-- A value `x` is representable if rounding keeps it. -/
def Rep (x : K) : Prop := Arith.rnd x = fin x

theorem rep_nat {n : ℕ} (h : n ≤ 2 ^ 53) : Rep (n : K) := rnd_nat n h
theorem rep_zero : Rep (0 : K) := rnd_zero
theorem rep_one : Rep (1 : K) := rnd_one

/-- Rounding cannot cross a representable number. -/
theorem fin_le_rnd {a x : K} (ha : Rep a) (h : a ≤ x) : fin a ≤ Arith.rnd x := by
  have := rnd_mono a x h; rwa [ha] at this
theorem rnd_le_fin {a x : K} (ha : Rep a) (h : x ≤ a) : Arith.rnd x ≤ fin a := by
  have := rnd_mono x a h; rwa [ha] at this

/-- Bounded by representable numbers, a rounded value is finite and keeps the bounds. -/
theorem rnd_between {a b x : K} (ha : Rep a) (hb : Rep b) (h1 : a ≤ x) (h2 : x ≤ b) :
    ∃ y, Arith.rnd x = fin y ∧ a ≤ y ∧ y ≤ b := by
  have l := fin_le_rnd ha h1
  have u := rnd_le_fin hb h2
  cases hx : Arith.rnd x with
  | nan => exact absurd hx (rnd_ne_nan x)
  | ninf => rw [hx] at l; simp at l
  | pinf => rw [hx] at u; simp at u
  | fin y => rw [hx] at l u; exact ⟨y, rfl, by simpa using l, by simpa using u⟩

end lawful

section exact
variable [Field K] [LinearOrder K] [IsStrictOrderedRing K] [Arith K] [ExactArith K]

theorem eadd (a b : K) : (fin a + fin b : F K) = fin (a + b) := by
  rw [add_fin, ExactArith.rnd_eq]
theorem esub (a b : K) : (fin a - fin b : F K) = fin (a - b) := by
  rw [sub_fin, ExactArith.rnd_eq]
theorem emul (a b : K) : (fin a * fin b : F K) = fin (a * b) := by
  rw [mul_fin, ExactArith.rnd_eq]
theorem ediv (a : K) {b : K} (hb : b ≠ 0) : (fin a / fin b : F K) = fin (a / b) := by
  rw [div_fin_ne a hb, ExactArith.rnd_eq]
theorem eofNat (n : ℕ) : (ofNat n : F K) = fin (n : K) := ExactArith.rnd_eq _
theorem elit (q : K) : (lit q : F K) = fin q := ExactArith.rnd_eq _

end exact

end F
end Up4
