import Verif.Props.Velocity
import Mathlib.Algebra.Polynomial.Roots
import Mathlib.Algebra.Polynomial.Taylor
import Mathlib.Algebra.Order.BigOperators.Ring.List

set_option linter.unusedSectionVars false

/-! # C53: velocities of polynomial motion, when the fit is a least-squares fit -/

namespace Up4
open F
open Selector (at')

variable {K : Type} [Field K] [LinearOrder K] [IsStrictOrderedRing K] [FloorRing K] [Arith K]

/-- Sum of the squared distances of the points from the polynomial with these coefficients. -/
noncomputable def residual (c : List K) (ts xs : List K) : K := ((ts.zip xs).map fun p => ((polyOf c).eval p.1 - p.2) ^ 2).sum

/-- The outside fit returns least-squares coefficients, as many as the degree asks for, if there are enough distinct times. -/
def FitLib.LeastSquares (lib : FitLib K) : Prop := ∀ (ts xs : List K) (d : ℕ), ts.length = xs.length → ts.Nodup → d < ts.length →
  ∃ c : List K, lib.polyfit (ts.map fin) (xs.map fin) d = some (c.map fin) ∧ c.length = d + 1 ∧
    ∀ c' : List K, c'.length = d + 1 → residual c ts xs ≤ residual c' ts xs

/-- The outside fit returns the polynomial when the points lie on one of the degree asked for. -/
def FitLib.ExactFit (lib : FitLib K) : Prop := ∀ (ts : List K) (q : Polynomial K) (d : ℕ), ts.Nodup → d < ts.length → q.natDegree ≤ d →
  lib.polyfit (ts.map fin) ((ts.map fun t => q.eval t).map fin) d = some (((List.range (d + 1)).map q.coeff).map fin)

theorem polyOf_eq (c : List K) : polyOf c = ∑ i ∈ Finset.range c.length, Polynomial.C (c.getD i 0) * Polynomial.X ^ i := by
  unfold polyOf
  have : ∀ (c : List K) (s : ℕ), ((c.zipIdx s).map fun x => Polynomial.C x.1 * Polynomial.X ^ x.2).sum =
      ∑ i ∈ Finset.range c.length, Polynomial.C (c.getD i 0) * Polynomial.X ^ (s + i) := by
    intro c
    induction c with
    | nil => intro s; simp
    | cons a c ih =>
      intro s
      rw [List.zipIdx_cons, List.map_cons, List.sum_cons, ih, List.length_cons, Finset.sum_range_succ']
      rw [add_comm]
      congr 1
      apply Finset.sum_congr rfl
      intro i _
      rw [List.getD_cons_succ]
      congr 2
      omega
  simpa using this c 0

theorem polyOf_coeff (c : List K) (i : ℕ) : (polyOf c).coeff i = c.getD i 0 := by
  rw [polyOf_eq, Polynomial.finsetSum_coeff]
  simp only [Polynomial.coeff_C_mul_X_pow]
  rw [Finset.sum_ite_eq]
  split
  · rfl
  · rename_i h
    rw [Finset.mem_range, not_lt] at h
    rw [List.getD_eq_getElem?_getD, List.getElem?_eq_none h]
    rfl

theorem polyOf_natDegree (c : List K) (d : ℕ) (h : c.length = d + 1) : (polyOf c).natDegree ≤ d := by
  rw [Polynomial.natDegree_le_iff_coeff_eq_zero]
  intro i hi
  rw [polyOf_coeff, List.getD_eq_getElem?_getD, List.getElem?_eq_none (by omega)]
  rfl

theorem polyOf_coeffs (q : Polynomial K) (d : ℕ) (h : q.natDegree ≤ d) : polyOf ((List.range (d + 1)).map q.coeff) = q := by
  ext i
  rw [polyOf_coeff, List.getD_eq_getElem?_getD]
  by_cases hi : i < d + 1
  · rw [List.getElem?_map, List.getElem?_range hi]
    rfl
  · rw [List.getElem?_eq_none (by simp; omega)]
    exact (Polynomial.coeff_eq_zero_of_natDegree_lt (by omega)).symm

theorem coeffs_polyOf (c : List K) (d : ℕ) (h : c.length = d + 1) : (List.range (d + 1)).map (polyOf c).coeff = c := by
  apply List.ext_getElem
  · simp [h]
  · intro i h1 h2
    rw [List.getElem_map, List.getElem_range, polyOf_coeff, List.getD_eq_getElem?_getD, List.getElem?_eq_getElem h2]
    rfl

theorem sum_sq_zero (l : List K) (h : (l.map fun x => x ^ 2).sum ≤ 0) : ∀ x ∈ l, x = 0 := by
  induction l with
  | nil => simp
  | cons a l ih =>
    rw [List.map_cons, List.sum_cons] at h
    have h1 : 0 ≤ a ^ 2 := sq_nonneg a
    have h2 : 0 ≤ (l.map fun x => x ^ 2).sum := List.sum_nonneg (by intro x hx; obtain ⟨y, _, rfl⟩ := List.mem_map.1 hx; exact sq_nonneg y)
    intro x hx
    rcases List.mem_cons.1 hx with rfl | hx
    · have : x ^ 2 = 0 := by linarith
      exact pow_eq_zero_iff (two_ne_zero) |>.1 this
    · exact ih (by linarith) x hx

/-- A least-squares fit is exact on points of a polynomial. -/
theorem FitLib.LeastSquares.exactFit {lib : FitLib K} (h : lib.LeastSquares) : lib.ExactFit := by
  intro ts q d hn hd hq
  obtain ⟨c, e, hl, hmin⟩ := h ts (ts.map fun t => q.eval t) d (by simp) hn hd
  rw [e]
  have h0 : residual ((List.range (d + 1)).map q.coeff) ts (ts.map fun t => q.eval t) = 0 := by
    unfold residual
    rw [polyOf_coeffs q d hq]
    have : (ts.zip (ts.map fun t => q.eval t)) = ts.map fun t => (t, q.eval t) := by
      rw [List.zip_map_right, List.zip_eq_zipWith, List.zipWith_self, List.map_map]
      rfl
    rw [this, List.map_map]
    apply List.sum_eq_zero
    intro x hx
    obtain ⟨t, _, rfl⟩ := List.mem_map.1 hx
    simp
  have h1 := hmin ((List.range (d + 1)).map q.coeff) (by simp)
  rw [h0] at h1
  have h2 : ∀ t ∈ ts, (polyOf c).eval t = q.eval t := by
    unfold residual at h1
    have : (ts.zip (ts.map fun t => q.eval t)) = ts.map fun t => (t, q.eval t) := by
      rw [List.zip_map_right, List.zip_eq_zipWith, List.zipWith_self, List.map_map]
      rfl
    rw [this, List.map_map] at h1
    have h3 := sum_sq_zero (ts.map fun t => (polyOf c).eval t - q.eval t) (by rw [List.map_map]; exact h1)
    intro t ht
    exact sub_eq_zero.1 (h3 _ (List.mem_map_of_mem ht))
  have h3 : polyOf c = q := by
    apply Polynomial.eq_of_natDegree_lt_card_of_eval_eq' _ _ ts.toFinset
    · intro t ht
      exact h2 t (List.mem_toFinset.1 ht)
    · rw [List.toFinset_card_of_nodup hn]
      have := polyOf_natDegree c d hl
      omega
  rw [← h3, coeffs_polyOf c d hl]

theorem table_window (n : ℕ) (t : ℕ → K) (x : ℕ → Fin 3 → K) (k s : ℕ) (h : k + s ≤ n) :
    ((table n t x).drop k).take s = (List.range s).map fun j => (⟨fin (t (k + j)), fun i => fin (x (k + j) i)⟩ : Row4 K) := by
  apply List.ext_getElem?
  intro j
  by_cases hj : j < s
  · rw [List.getElem?_take_of_lt hj, List.getElem?_drop, table_get n t x (by omega), List.getElem?_map, List.getElem?_range hj]
    rfl
  · rw [List.getElem?_eq_none (by simp; omega), List.getElem?_eq_none (by simp; omega)]

/-- **C53 for polynomial motion** (exact arithmetic, strictly increasing times, a fit that is exact on polynomials - every least-squares fit is, see
`FitLib.LeastSquares.exactFit` - and exact `powf`). If coordinate `i` follows a polynomial `q i` of time whose degree is at most that of the fit, the
velocity of each row is the true velocity `q i'`, at the time of the next row instead of that of the row itself. -/
theorem C53_motion_partial [ExactArith K] (lib : FitLib K) (hpow : lib.ExactPow) (hls : lib.ExactFit) (n : ℕ) (t : ℕ → K)
    (q : Fin 3 → Polynomial K) (hm : ∀ i j, i < j → j < n → t i < t j) (h degree : ℕ) (hh : 1 ≤ h) (hN : 2 * h ≤ n) (hd : degree ≤ 2 * h)
    (hq : ∀ i, (q i).natDegree ≤ degree) :
    ∃ out, velocityPolynom lib (table n t fun j i => (q i).eval (t j)) (2 * h + 1) degree = .ok out ∧ out.length = n - 2 * h ∧
      ∀ k, k < n - 2 * h → ∃ row, out[k]? = some row ∧ row.t = fin (t (k + h)) ∧ (∀ i, row.p i = fin ((q i).eval (t (k + h)))) ∧
        ∀ i, row.v i = fin ((q i).derivative.eval (t (k + h + 1))) := by
  have hfit : ∀ k i, k < n - 2 * h → lib.polyfit (windowTimes (table n t fun j i => (q i).eval (t j)) k (2 * h + 1))
      (windowCoords (table n t fun j i => (q i).eval (t j)) k (2 * h + 1) i) degree =
      some (((List.range (degree + 1)).map ((q i).comp (Polynomial.X + Polynomial.C (t k))).coeff).map fin) := by
    intro k i hk
    have h1 : windowTimes (table n t fun j i => (q i).eval (t j)) k (2 * h + 1) =
        ((List.range (2 * h + 1)).map fun j => t (k + j) - t k).map fin := by
      unfold windowTimes
      rw [table_window _ _ _ _ _ (by omega), table_get _ _ _ (by omega), List.map_map, List.map_map]
      apply List.map_congr_left
      intro j _
      exact F.esub _ _
    have h2 : windowCoords (table n t fun j i => (q i).eval (t j)) k (2 * h + 1) i =
        (((List.range (2 * h + 1)).map fun j => t (k + j) - t k).map fun s => ((q i).comp (Polynomial.X + Polynomial.C (t k))).eval s).map fin := by
      unfold windowCoords
      rw [table_window _ _ _ _ _ (by omega), List.map_map, List.map_map, List.map_map]
      apply List.map_congr_left
      intro j _
      simp
    rw [h1, h2]
    apply hls
    · rw [List.nodup_map_iff_inj_on List.nodup_range]
      intro a ha b hb hab
      rw [List.mem_range] at ha hb
      have hab : t (k + a) = t (k + b) := by linarith
      by_contra hne
      rcases lt_or_gt_of_ne hne with hlt | hlt
      · exact absurd hab (hm (k + a) (k + b) (by omega) (by omega)).ne
      · exact absurd hab (hm (k + b) (k + a) (by omega) (by omega)).ne'
    · simp; omega
    · refine le_trans Polynomial.natDegree_comp_le ?_
      rw [Polynomial.natDegree_X_add_C, mul_one]
      exact hq i
  obtain ⟨out, h1, h2, h3⟩ := C53_derivative_partial lib hpow n t (fun j i => (q i).eval (t j)) hm h degree hh hN
    (fun k i => (List.range (degree + 1)).map ((q i).comp (Polynomial.X + Polynomial.C (t k))).coeff) hfit
  refine ⟨out, h1, h2, fun k hk => ?_⟩
  obtain ⟨row, r1, r2, r3, r4⟩ := h3 k hk
  refine ⟨row, r1, r2, r3, fun i => ?_⟩
  rw [r4 i, polyOf_coeffs]
  · congr 1
    rw [Polynomial.derivative_comp]
    simp
  · refine le_trans Polynomial.natDegree_comp_le ?_
    rw [Polynomial.natDegree_X_add_C, mul_one]
    exact hq i

/-- **C53 for uniform motion** (same hypotheses): every row gets the constant velocity. Here the property holds in full. -/
theorem C53_uniform [ExactArith K] (lib : FitLib K) (hpow : lib.ExactPow) (hls : lib.ExactFit) (n : ℕ) (t : ℕ → K)
    (a b : Fin 3 → K) (hm : ∀ i j, i < j → j < n → t i < t j) (h degree : ℕ) (hh : 1 ≤ h) (hN : 2 * h ≤ n) (hd : 1 ≤ degree ∧ degree ≤ 2 * h) :
    ∃ out, velocityPolynom lib (table n t fun j i => a i + b i * t j) (2 * h + 1) degree = .ok out ∧ out.length = n - 2 * h ∧
      ∀ k, k < n - 2 * h → ∃ row, out[k]? = some row ∧ row.t = fin (t (k + h)) ∧ (∀ i, row.p i = fin (a i + b i * t (k + h))) ∧
        ∀ i, row.v i = fin (b i) := by
  have hq : ∀ (i : Fin 3), (Polynomial.C (a i) + Polynomial.C (b i) * Polynomial.X).natDegree ≤ degree := by
    intro i
    rw [add_comm]
    exact le_trans Polynomial.natDegree_linear_le hd.1
  have := C53_motion_partial lib hpow hls n t (fun i => Polynomial.C (a i) + Polynomial.C (b i) * Polynomial.X) hm h degree hh hN hd.2 hq
  simpa using this

/-- A fit that finds the polynomial if there is one, with exact powers. -/
noncomputable def choiceLib : FitLib ℝ where
  polyfit ts xs d := by
    classical
    exact if h : ∃ (l : List ℝ) (q : Polynomial ℝ), ts = l.map fin ∧ xs = (l.map fun t => q.eval t).map fin ∧ l.Nodup ∧ d < l.length ∧ q.natDegree ≤ d
      then some (((List.range (d + 1)).map (Classical.choose (Classical.choose_spec h)).coeff).map fin) else none
  powf := squareLib.powf

theorem fin_injective : Function.Injective (fin : K → F K) := fun _ _ h => by cases h; rfl

theorem choiceLib_exact : choiceLib.ExactFit := by
  intro ts q d hn hd hq
  unfold choiceLib
  dsimp only
  have h : ∃ (l : List ℝ) (q' : Polynomial ℝ), ts.map fin = l.map fin ∧ (ts.map fun t => q.eval t).map fin = (l.map fun t => q'.eval t).map fin ∧
      l.Nodup ∧ d < l.length ∧ q'.natDegree ≤ d := ⟨ts, q, rfl, rfl, hn, hd, hq⟩
  rw [dif_pos h]
  have hs := Classical.choose_spec (Classical.choose_spec h)
  generalize Classical.choose (Classical.choose_spec h) = q' at hs ⊢
  generalize Classical.choose h = l at hs
  obtain ⟨h1, h2, h3, h4, h5⟩ := hs
  have e1 := List.map_injective_iff.2 fin_injective h1
  subst e1
  have e2 := List.map_injective_iff.2 fin_injective h2
  rw [List.map_inj_left] at e2
  have : q' = q := by
    apply Polynomial.eq_of_natDegree_lt_card_of_eval_eq' _ _ ts.toFinset
    · intro t ht
      exact (e2 t (List.mem_toFinset.1 ht)).symm
    · rw [List.toFinset_card_of_nodup hn]
      omega
  rw [this]

/-- Witness: motion `x = 1 + 2t`, five rows, window 3. -/
example : ∃ out, velocityPolynom choiceLib (table 5 (fun j => (j : ℝ)) fun j _ => 1 + 2 * (j : ℝ)) 3 2 = .ok out ∧ out.length = 3 ∧
    ∀ k, k < 3 → ∃ row, out[k]? = some row ∧ ∀ i, row.v i = fin 2 := by
  obtain ⟨out, h1, h2, h3⟩ := C53_uniform choiceLib squareLib_pow choiceLib_exact 5 (fun j => (j : ℝ)) (fun _ => 1) (fun _ => 2)
    (fun i j hij _ => by exact_mod_cast hij) 1 2 (by omega) (by omega) ⟨by omega, by omega⟩
  refine ⟨out, h1, h2, fun k hk => ?_⟩
  obtain ⟨row, r1, _, _, r4⟩ := h3 k hk
  exact ⟨row, r1, r4⟩

end Up4
