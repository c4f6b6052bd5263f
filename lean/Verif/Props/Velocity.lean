import Verif.Props.Interpolate
import Verif.Props.Fields
import Verif.Props.Granular
import Mathlib.Algebra.Polynomial.Derivative
import Mathlib.Algebra.Polynomial.Eval.Defs

set_option linter.unusedSectionVars false

/-! # C53: velocities from fitted polynomials -/

namespace Up4
open F
open Selector (at')

variable {K : Type} [Field K] [LinearOrder K] [IsStrictOrderedRing K] [FloorRing K] [Arith K]

theorem emit_forall₂ {α β : Type} (l : List α) (f : α → Run β) (h : ∀ x ∈ l, ∃ y, f x = .ok y) (acc : List β) :
    ∃ ys, l.foldlM (fun acc x => do
      let row ← f x
      pure (acc ++ [row])) acc = (.ok (acc ++ ys) : Run (List β)) ∧ List.Forall₂ (fun x y => f x = .ok y) l ys := by
  induction l generalizing acc with
  | nil => exact ⟨[], by simp [run_pure], List.Forall₂.nil⟩
  | cons x l ih =>
    obtain ⟨y, hy⟩ := h x (by simp)
    obtain ⟨ys, he, hf⟩ := ih (fun z hz => h z (by simp [hz])) (acc ++ [y])
    refine ⟨y :: ys, ?_, List.Forall₂.cons hy hf⟩
    rw [List.foldlM_cons, hy, run_bind_ok, run_pure, run_bind_ok, he, List.append_assoc]
    rfl

/-- Times of the window of `s` rows from row `k`, counted from its first row. -/
def windowTimes (data : List (Row4 K)) (k s : ℕ) : List (F K) :=
  ((data.drop k).take s).map fun r => r.t - ((data[k]?).map Row4.t).getD nan

/-- Coordinate `i` in the window of `s` rows from row `k`. -/
def windowCoords (data : List (Row4 K)) (k s : ℕ) (i : Fin 3) : List (F K) := ((data.drop k).take s).map fun r => r.p i

theorem window_get {data : List (Row4 K)} {k s j : ℕ} (hj : j < s) (h : k + j < data.length) :
    (windowTimes data k s)[j]? = some (data[k + j].t - data[k].t) := by
  unfold windowTimes
  rw [List.getElem?_map, List.getElem?_take_of_lt hj, List.getElem?_drop, List.getElem?_eq_getElem h,
    List.getElem?_eq_getElem (by omega : k < data.length)]
  rfl

theorem windowVel_ok (lib : FitLib K) (data : List (Row4 K)) (k h degree : ℕ) (hh : 1 ≤ h) (hk : k + h + 1 < data.length) (i : Fin 3)
    (c : List (F K)) (hc : lib.polyfit (windowTimes data k (2 * h + 1)) (windowCoords data k (2 * h + 1) i) degree = some c) :
    windowVel lib (windowTimes data k (2 * h + 1)) (windowCoords data k (2 * h + 1) i) (2 * h + 1) degree =
      .ok (polyDeriv lib c (data[k + h + 1].t - data[k].t)) := by
  unfold windowVel
  rw [hc]
  dsimp only
  cases c with
  | nil => rfl
  | cons c0 c =>
    dsimp only
    have e : (2 * h + 1 - 1) / 2 + 1 = h + 1 := by omega
    rw [e]
    unfold at'
    rw [window_get (by omega) (by omega : k + (h + 1) < data.length)]
    rfl

/-- **C53, the rows** (any arithmetic). An odd window of `2h+1 >= 3` rows over `N >= 2h` rows, with fits that succeed: `N - 2h` rows; row `k` has the time and
position of input row `k + h`, and as velocity the derivative sum of the polynomial fitted to the window around it - taken at the time of input row
`k + h + 1`, one past it. -/
theorem C53_rows_partial (lib : FitLib K) (data : List (Row4 K)) (h degree : ℕ) (hh : 1 ≤ h) (hN : 2 * h ≤ data.length)
    (hfit : ∀ k i, k < data.length - 2 * h →
      ∃ c, lib.polyfit (windowTimes data k (2 * h + 1)) (windowCoords data k (2 * h + 1) i) degree = some c) :
    ∃ out, velocityPolynom lib data (2 * h + 1) degree = .ok out ∧ out.length = data.length - 2 * h ∧
      ∀ k, k < data.length - 2 * h → ∃ row r0 src next, out[k]? = some row ∧ data[k]? = some r0 ∧ data[k + h]? = some src ∧
        data[k + h + 1]? = some next ∧ row.t = src.t ∧ row.p = src.p ∧
        ∀ i c, lib.polyfit (windowTimes data k (2 * h + 1)) (windowCoords data k (2 * h + 1) i) degree = some c →
          row.v i = polyDeriv lib c (next.t - r0.t) := by
  have e1 : (2 * h + 1 - 1) / 2 = h := by omega
  have hrow : ∀ id, h ≤ id → (hid : id + h < data.length) → ∃ row, windowRow lib data (2 * h + 1) degree id = .ok row ∧
      row.t = data[id].t ∧ row.p = data[id].p ∧
      ∀ i c, lib.polyfit (windowTimes data (id - h) (2 * h + 1)) (windowCoords data (id - h) (2 * h + 1) i) degree = some c →
          row.v i = polyDeriv lib c (data[id + 1].t - data[id - h].t) := by
    intro id h1 h2
    obtain ⟨c0, f0⟩ := hfit (id - h) 0 (by omega)
    obtain ⟨c1, f1⟩ := hfit (id - h) 1 (by omega)
    obtain ⟨c2, f2⟩ := hfit (id - h) 2 (by omega)
    have w0 := windowVel_ok lib data (id - h) h degree hh (by omega) 0 c0 f0
    have w1 := windowVel_ok lib data (id - h) h degree hh (by omega) 1 c1 f1
    have w2 := windowVel_ok lib data (id - h) h degree hh (by omega) 2 c2 f2
    have ei : id - h + h + 1 = id + 1 := by omega
    have eidx : data[id - h + h + 1] = data[id + 1] := by congr 1
    rw [eidx] at w0 w1 w2
    refine ⟨⟨data[id].t, data[id].p, ![polyDeriv lib c0 (data[id + 1].t - data[id - h].t), polyDeriv lib c1 (data[id + 1].t - data[id - h].t),
      polyDeriv lib c2 (data[id + 1].t - data[id - h].t)]⟩, ?_, rfl, rfl, ?_⟩
    · unfold windowRow
      rw [e1]
      dsimp only
      have ht0 : at' (((data.drop (id - h)).take (2 * h + 1)).map Row4.t) 0 = .ok data[id - h].t := by
        unfold at'
        rw [List.getElem?_map, List.getElem?_take_of_lt (by omega), List.getElem?_drop, Nat.add_zero, List.getElem?_eq_getElem (by omega)]
        rfl
      have htimes : (((data.drop (id - h)).take (2 * h + 1)).map Row4.t).map (fun t => t - data[id - h].t) = windowTimes data (id - h) (2 * h + 1) := by
        unfold windowTimes
        rw [List.map_map, List.getElem?_eq_getElem (by omega : id - h < data.length)]
        rfl
      rw [ht0, run_bind_ok, htimes]
      change (do
        let vx ← windowVel lib (windowTimes data (id - h) (2 * h + 1)) (windowCoords data (id - h) (2 * h + 1) 0) (2 * h + 1) degree
        let vy ← windowVel lib (windowTimes data (id - h) (2 * h + 1)) (windowCoords data (id - h) (2 * h + 1) 1) (2 * h + 1) degree
        let vz ← windowVel lib (windowTimes data (id - h) (2 * h + 1)) (windowCoords data (id - h) (2 * h + 1) 2) (2 * h + 1) degree
        let r ← at' data id
        pure (⟨r.t, r.p, ![vx, vy, vz]⟩ : Row7 K) : Run (Row7 K)) = _
      rw [w0, run_bind_ok, w1, run_bind_ok, w2, run_bind_ok, at_some (by omega), run_bind_ok]
      rfl
    · intro i c hc
      fin_cases i
      · have := hc.symm.trans f0; cases this; rfl
      · have := hc.symm.trans f1; cases this; rfl
      · have := hc.symm.trans f2; cases this; rfl
  obtain ⟨out, he, hf⟩ := emit_forall₂ (List.range' h (data.length - h - h)) (windowRow lib data (2 * h + 1) degree) (by
    intro id hid
    rw [List.mem_range'_1] at hid
    obtain ⟨row, hr, _⟩ := hrow id (by omega) (by omega)
    exact ⟨row, hr⟩) []
  have hl : out.length = data.length - 2 * h := by have := hf.length_eq; rw [List.length_range'] at this; omega
  refine ⟨out, ?_, hl, fun k hk => ?_⟩
  · unfold velocityPolynom
    rw [if_neg (by omega), if_neg (by omega), e1, he]
    rfl
  · obtain ⟨row, hr, ht, hp, hv⟩ := hrow (k + h) (by omega) (by omega)
    have hk' : k < out.length := by omega
    have := List.forall₂_iff_get.1 hf
    have hget := this.2 k (by simp; omega) hk'
    simp only [List.get_eq_getElem, List.getElem_range', Nat.one_mul] at hget
    rw [Nat.add_comm h k, hr] at hget
    have hrow' : out[k]? = some row := by rw [List.getElem?_eq_getElem hk']; cases hget; rfl
    refine ⟨row, data[k], data[k + h], data[k + h + 1], hrow', List.getElem?_eq_getElem _, List.getElem?_eq_getElem _, List.getElem?_eq_getElem _,
      ht, hp, ?_⟩
    intro i c hc
    have e : k + h - h = k := by omega
    have ed : data[k + h - h] = data[k] := by congr 1
    have := hv i c (by rw [e]; exact hc)
    rw [ed] at this
    exact this

/-- **C53, rejection.** Even windows are rejected. -/
theorem C53_even (lib : FitLib K) (data : List (Row4 K)) (s degree : ℕ) (h : s % 2 = 0) : velocityPolynom lib data s degree = .error .explicit := by
  unfold velocityPolynom
  rw [if_pos h]

/-- **C53, a window of one row panics** as soon as there is a row and a fit with a coefficient: the derivative is looked up one past the middle. -/
theorem C53_one_panics (lib : FitLib K) (r : Row4 K) (data : List (Row4 K)) (degree : ℕ) (c0 : F K) (c : List (F K))
    (hc : lib.polyfit [r.t - r.t] [r.p 0] degree = some (c0 :: c)) : velocityPolynom lib (r :: data) 1 degree = .error .index := by
  unfold velocityPolynom
  rw [if_neg (by omega), if_neg (by omega)]
  have e : List.range' ((1 - 1) / 2) ((r :: data).length - (1 - 1) / 2 - (1 - 1) / 2) = 0 :: List.range' 1 data.length := by
    change List.range' 0 (data.length + 1) = _
    rw [List.range'_succ]
  rw [e, List.foldlM_cons]
  have hw : windowRow lib (r :: data) 1 degree 0 = .error .index := by
    unfold windowRow
    change (do
      let vx ← windowVel lib [r.t - r.t] [r.p 0] 1 degree
      let vy ← windowVel lib [r.t - r.t] [r.p 1] 1 degree
      let vz ← windowVel lib [r.t - r.t] [r.p 2] 1 degree
      let r' ← at' (r :: data) 0
      pure (⟨r'.t, r'.p, ![vx, vy, vz]⟩ : Row7 K) : Run (Row7 K)) = _
    have hv : windowVel lib [r.t - r.t] [r.p 0] 1 degree = .error .index := by
      unfold windowVel
      rw [hc]
      rfl
    rw [hv]
    rfl
  rw [hw]
  rfl

/-! ### The velocity as a derivative -/

/-- The polynomial with these coefficients, lowest first. -/
noncomputable def polyOf (c : List K) : Polynomial K := (c.zipIdx.map fun x => Polynomial.C x.1 * Polynomial.X ^ x.2).sum

/-- `powf` is exact for the exponents -1, 0, 1, ... of a nonzero number. -/
def FitLib.ExactPow (lib : FitLib K) : Prop := ∀ (tau : K) (n : ℕ), tau ≠ 0 → lib.powf (fin tau) (fin ((n : K) - 1)) = fin (tau ^ ((n : ℤ) - 1))

theorem polyDeriv_exact [ExactArith K] (lib : FitLib K) (hp : lib.ExactPow) (c : List K) (tau : K) (ht : tau ≠ 0) :
    polyDeriv lib (c.map fin) (fin tau) = fin ((polyOf c).derivative.eval tau) := by
  unfold polyDeriv polyOf
  have h1 : ((c.map fin).zipIdx.map fun x => x.1 * F.ofNat x.2 * lib.powf (fin tau) (F.ofNat x.2 - 1)) =
      (c.zipIdx.map fun x => x.1 * x.2 * tau ^ ((x.2 : ℤ) - 1)).map fin := by
    rw [List.zipIdx_map, List.map_map, List.map_map]
    apply List.map_congr_left
    rintro ⟨a, n⟩ _
    change fin a * F.ofNat n * lib.powf (fin tau) (F.ofNat n - 1) = fin (a * n * tau ^ ((n : ℤ) - 1))
    rw [F.eofNat, F.one_def, F.esub, hp tau n ht, F.emul, F.emul]
  rw [h1, sum_fin]
  congr 1
  induction c.zipIdx with
  | nil => simp
  | cons x l ih =>
    rw [List.map_cons, List.sum_cons, List.map_cons, List.sum_cons, Polynomial.derivative_add, Polynomial.eval_add, ← ih]
    congr 1
    rw [Polynomial.derivative_C_mul_X_pow, Polynomial.eval_mul, Polynomial.eval_C, Polynomial.eval_pow, Polynomial.eval_X]
    obtain ⟨a, n⟩ := x
    cases n with
    | zero => simp
    | succ n => 
      dsimp only
      congr 1
      push_cast
      rw [add_sub_cancel_right, zpow_natCast]

/-- **C53, the velocity** (exact arithmetic, strictly increasing times, exact `powf`): the derivative of the fitted polynomial, at the time of the NEXT
row. -/
theorem C53_derivative_partial [ExactArith K] (lib : FitLib K) (hpow : lib.ExactPow) (n : ℕ) (t : ℕ → K) (x : ℕ → Fin 3 → K)
    (hm : ∀ i j, i < j → j < n → t i < t j) (h degree : ℕ) (hh : 1 ≤ h) (hN : 2 * h ≤ n) (c : ℕ → Fin 3 → List K)
    (hfit : ∀ k i, k < n - 2 * h → lib.polyfit (windowTimes (table n t x) k (2 * h + 1)) (windowCoords (table n t x) k (2 * h + 1) i) degree =
      some ((c k i).map fin)) :
    ∃ out, velocityPolynom lib (table n t x) (2 * h + 1) degree = .ok out ∧ out.length = n - 2 * h ∧
      ∀ k, k < n - 2 * h → ∃ row, out[k]? = some row ∧ row.t = fin (t (k + h)) ∧ (∀ i, row.p i = fin (x (k + h) i)) ∧
        ∀ i, row.v i = fin ((polyOf (c k i)).derivative.eval (t (k + h + 1) - t k)) := by
  obtain ⟨out, he, hl, hr⟩ := C53_rows_partial lib (table n t x) h degree hh (by rw [length_table]; exact hN)
    (fun k i hk => ⟨_, hfit k i (by rwa [length_table] at hk)⟩)
  rw [length_table] at hl hr
  refine ⟨out, he, hl, fun k hk => ?_⟩
  obtain ⟨row, r0, src, next, h1, h2, h3, h4, h5, h6, h7⟩ := hr k hk
  rw [table_get n t x (by omega)] at h2 h3 h4
  cases h2
  cases h3
  cases h4
  refine ⟨row, h1, h5, fun i => by rw [h6], fun i => ?_⟩
  rw [h7 i _ (hfit k i hk), F.esub, polyDeriv_exact lib hpow]
  have := hm k (k + h + 1) (by omega) (by omega)
  exact (sub_pos.2 this).ne'

/-- **C53 for fits of uniform motion.** When the fitted polynomial is `a + b t`, the velocity is `b`, whatever the time it is taken at. -/
theorem C53_linear_partial [ExactArith K] (lib : FitLib K) (hpow : lib.ExactPow) (n : ℕ) (t : ℕ → K) (x : ℕ → Fin 3 → K)
    (hm : ∀ i j, i < j → j < n → t i < t j) (h degree : ℕ) (hh : 1 ≤ h) (hN : 2 * h ≤ n) (a b : ℕ → Fin 3 → K)
    (hfit : ∀ k i, k < n - 2 * h → lib.polyfit (windowTimes (table n t x) k (2 * h + 1)) (windowCoords (table n t x) k (2 * h + 1) i) degree =
      some [fin (a k i), fin (b k i), 0]) :
    ∃ out, velocityPolynom lib (table n t x) (2 * h + 1) degree = .ok out ∧ out.length = n - 2 * h ∧
      ∀ k, k < n - 2 * h → ∃ row, out[k]? = some row ∧ row.t = fin (t (k + h)) ∧ (∀ i, row.p i = fin (x (k + h) i)) ∧ ∀ i, row.v i = fin (b k i) := by
  obtain ⟨out, h1, h2, h3⟩ := C53_derivative_partial lib hpow n t x hm h degree hh hN (fun k i => [a k i, b k i, 0]) hfit
  refine ⟨out, h1, h2, fun k hk => ?_⟩
  obtain ⟨row, r1, r2, r3, r4⟩ := h3 k hk
  refine ⟨row, r1, r2, r3, fun i => ?_⟩
  rw [r4 i]
  simp [polyOf, List.zipIdx]

/-- A fit that is right for `t^2` sampled at 0, 1, 2, and exact powers with whole exponents. -/
noncomputable def squareLib : FitLib ℝ where
  polyfit _ _ _ := some ([0, 0, 1].map fin)
  powf x y := match x, y with
    | fin a, fin b => fin (a ^ ⌊b⌋)
    | _, _ => nan

theorem squareLib_pow : squareLib.ExactPow := by
  intro tau n _
  change fin (tau ^ ⌊(n : ℝ) - 1⌋) = _
  congr 2
  rw [Int.floor_sub_one]
  simp

/-- **C53 is false of the code**: the velocity is not that of the row. Motion `x = t^2`, rows at times 0, 1, 2, window 3, the fit being exactly `t^2`:
the one output row is at time 1, where the velocity is 2; it gets the velocity 4 of time 2. -/
theorem C53_false : ∃ out row, velocityPolynom squareLib (table 3 (fun j => (j : ℝ)) fun j _ => (j : ℝ) ^ 2) 3 2 = .ok out ∧ out = [row] ∧ row.t = fin 1 ∧
    row.v 0 = fin 4 ∧ (polyOf [0, 0, (1 : ℝ)]).derivative.eval 1 = 2 := by
  obtain ⟨out, h1, h2, h3⟩ := C53_derivative_partial squareLib squareLib_pow 3 (fun j => (j : ℝ)) (fun j _ => (j : ℝ) ^ 2)
    (fun i j hij _ => by exact_mod_cast hij) 1 2 (by omega) (by omega) (fun _ _ => [0, 0, 1]) (fun _ _ _ => rfl)
  obtain ⟨row, r1, r2, _, r4⟩ := h3 0 (by omega)
  match out, h2 with
  | [r], _ =>
    cases r1
    refine ⟨[row], row, h1, rfl, ?_, ?_, ?_⟩
    · rw [r2]; norm_num
    · rw [r4 0]
      congr 1
      simp [polyOf, List.zipIdx]
      norm_num
    · simp [polyOf, List.zipIdx]
      norm_num

/-- The exact fit is one: it passes through the three points. -/
example : ∀ j : ℕ, j < 3 → (polyOf [0, 0, (1 : ℝ)]).eval (j : ℝ) = (j : ℝ) ^ 2 := by
  intro j _
  simp [polyOf, List.zipIdx]

end Up4
