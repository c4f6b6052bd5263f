import Verif.Proofs.Store

set_option linter.unusedSectionVars false

/-! Lemmas about the cylindrical geometry. -/

namespace Up4
open F

variable {K : Type} [Field K] [LinearOrder K] [IsStrictOrderedRing K] [FloorRing K] [Arith K]

namespace CylGeom

/-- Shell `s` contains the radius `r`. -/
def Has (s : F K × F K) (r : F K) : Prop := s.1 ≤ r ∧ r ≤ s.2

instance (s : F K × F K) (r : F K) : Decidable (Has s r) := inferInstanceAs (Decidable (_ ∧ _))

theorem radialScan_spec (r : F K) (l : List (F K × F K)) (i : ℕ) (acc : Option ℕ) :
    (∃ k, radialScan r l i acc = some (i + k) ∧ (∃ s, l[k]? = some s ∧ Has s r) ∧
      ∀ m s, k < m → l[m]? = some s → ¬ Has s r) ∨
    (radialScan r l i acc = acc ∧ ∀ s ∈ l, ¬ Has s r) := by
  induction l generalizing i acc with
  | nil => right; exact ⟨rfl, by simp⟩
  | cons s l ih =>
    rcases ih (i + 1) (if s.1 ≤ r ∧ r ≤ s.2 then some i else acc) with ⟨k, h1, h2, h3⟩ | ⟨h1, h2⟩
    · left
      refine ⟨k + 1, ?_, ?_, ?_⟩
      · change radialScan r l (i + 1) _ = _
        rw [h1]; congr 1; omega
      · simpa using h2
      · intro m t hm ht
        obtain ⟨m, rfl⟩ : ∃ m', m = m' + 1 := ⟨m - 1, by omega⟩
        exact h3 m t (by omega) (by simpa using ht)
    · by_cases hs : Has s r
      · left
        refine ⟨0, ?_, ⟨s, rfl, hs⟩, ?_⟩
        · change radialScan r l (i + 1) _ = _
          rw [h1]; exact if_pos hs
        · intro m t hm ht
          obtain ⟨m, rfl⟩ : ∃ m', m = m' + 1 := ⟨m - 1, by omega⟩
          exact h2 t (List.mem_of_getElem? (by simpa using ht))
      · right
        refine ⟨?_, ?_⟩
        · change radialScan r l (i + 1) _ = _
          rw [h1]; exact if_neg hs
        · intro t ht
          rcases List.mem_cons.1 ht with rfl | ht
          · exact hs
          · exact h2 t ht

theorem shells_length (outer : F K) (n m : ℕ) (inner : F K) : (shells outer n m inner).length = m := by
  induction m generalizing inner with
  | zero => rfl
  | succ m ih => simp [shells, ih]

/-- Consecutive shells share a boundary, so a radius between the first inner and the last outer radius
is in some shell: no assumption about the arithmetic. -/
theorem shells_cover (outer : F K) (n : ℕ) (m : ℕ) (inner r : F K) (h1 : inner ≤ r)
    (h2 : ∃ s, (shells outer n (m + 1) inner)[m]? = some s ∧ r ≤ s.2)
    (hnan : ∀ s ∈ shells outer n (m + 1) inner, s.2 ≠ F.nan) :
    ∃ s ∈ shells outer n (m + 1) inner, Has s r := by
  induction m generalizing inner with
  | zero =>
    obtain ⟨s, hs, hr⟩ := h2
    simp only [shells, List.getElem?_cons_zero, Option.some.injEq] at hs
    subst hs
    exact ⟨_, by simp [shells], h1, hr⟩
  | succ m ih =>
    have hne : nextRadius outer n inner ≠ F.nan := hnan (inner, nextRadius outer n inner) (by simp [shells])
    have hr : r ≠ F.nan := by rintro rfl; simp at h1
    rcases lt_or_le' hne hr with h | h
    · obtain ⟨s, hs, hr'⟩ := h2
      obtain ⟨t, ht, hh⟩ := ih (nextRadius outer n inner) (le_of_lt' h)
        ⟨s, by simpa [shells] using hs, hr'⟩ (fun s hs => hnan s (by
          rw [shells]; exact List.mem_cons_of_mem _ hs))
      exact ⟨t, by rw [shells]; exact List.mem_cons_of_mem _ ht, hh⟩
    · exact ⟨_, by rw [shells]; exact List.mem_cons_self, h1, h⟩

/-! ### argmin -/

theorem argminLoop_spec (l : List (F K)) (hn : ∀ x ∈ l, x ≠ F.nan) (pre : List (F K)) (cur : F K)
    (best : ℕ) (hcur : cur ≠ F.nan) (hb : (pre ++ l)[best]? = some cur)
    (hbl : best < pre.length ∨ (pre = [] ∧ best = 0))
    (hmin : ∀ m x, m < pre.length → pre[m]? = some x → cur ≤ x ∧ (m < best → cur < x)) :
    ∃ k c, argminLoop l pre.length cur best = some k ∧ (pre ++ l)[k]? = some c ∧
      ∀ m x, (pre ++ l)[m]? = some x → c ≤ x ∧ (m < k → c < x) := by
  induction l generalizing pre cur best with
  | nil =>
    refine ⟨best, cur, rfl, hb, fun m x hx => ?_⟩
    rw [List.append_nil] at hx
    have hm : m < pre.length := by
      by_contra h
      rw [List.getElem?_eq_none (by omega)] at hx; cases hx
    exact hmin m x hm hx
  | cons a l ih =>
    have ha : a ≠ F.nan := hn a (by simp)
    have hisn : (a.isNaN || cur.isNaN) = false := by
      rw [Bool.or_eq_false_iff]
      exact ⟨by rw [Bool.eq_false_iff, Ne, isNaN_iff]; exact ha,
        by rw [Bool.eq_false_iff, Ne, isNaN_iff]; exact hcur⟩
    have happ : pre ++ a :: l = (pre ++ [a]) ++ l := by simp
    have hlen : (pre ++ [a]).length = pre.length + 1 := by simp
    unfold argminLoop
    rw [hisn, if_neg (by simp)]
    by_cases hlt : a < cur
    · rw [if_pos hlt]
      have hmin' : ∀ m x, m < (pre ++ [a]).length → (pre ++ [a])[m]? = some x →
          a ≤ x ∧ (m < pre.length → a < x) := by
        intro m x hm hx
        by_cases hmp : m < pre.length
        · rw [List.getElem?_append_left hmp] at hx
          have h := (hmin m x hmp hx).1
          have hax : a < x := lt_of_lt_of_le' hlt h
          exact ⟨le_of_lt' hax, fun _ => hax⟩
        · have : m = pre.length := by omega
          subst this
          rw [List.getElem?_append_right (le_refl _)] at hx
          simp at hx
          subst hx
          exact ⟨le_refl' ha, fun h => absurd h (by omega)⟩
      have := ih (fun x hx => hn x (by simp [hx])) (pre ++ [a]) a pre.length ha
        (by rw [← happ, List.getElem?_append_right (le_refl _)]; simp) (Or.inl (by omega)) hmin'
      rw [hlen, ← happ] at this
      exact this
    · rw [if_neg hlt]
      have hle : cur ≤ a := by
        rcases lt_or_le' ha hcur with h | h
        · exact absurd h hlt
        · exact h
      have hmin' : ∀ m x, m < (pre ++ [a]).length → (pre ++ [a])[m]? = some x →
          cur ≤ x ∧ (m < best → cur < x) := by
        intro m x hm hx
        by_cases hmp : m < pre.length
        · rw [List.getElem?_append_left hmp] at hx
          exact hmin m x hmp hx
        · have : m = pre.length := by omega
          subst this
          rw [List.getElem?_append_right (le_refl _)] at hx
          simp at hx
          subst hx
          refine ⟨hle, fun h => ?_⟩
          rcases hbl with h' | ⟨h1, h2⟩
          · omega
          · omega
      have := ih (fun x hx => hn x (by simp [hx])) (pre ++ [a]) cur best hcur
        (by rw [← happ]; exact hb) (by left; rcases hbl with h' | ⟨h1, h2⟩ <;> omega) hmin'
      rw [hlen, ← happ] at this
      exact this

/-- `argmin` of a nonempty NaN-free list: the first index of a minimum. -/
theorem argmin_spec (l : List (F K)) (hne : l ≠ []) (hn : ∀ x ∈ l, x ≠ F.nan) :
    ∃ k c, argmin l = some k ∧ l[k]? = some c ∧ ∀ m x, l[m]? = some x → c ≤ x ∧ (m < k → c < x) := by
  cases l with
  | nil => exact absurd rfl hne
  | cons a l =>
    have := argminLoop_spec (a :: l) hn [] a 0 (hn a (by simp)) (by simp) (Or.inr ⟨rfl, rfl⟩)
      (by simp)
    simpa [argmin] using this

/-- `argmin` of a list containing NaN fails. -/
theorem argminLoop_nan (l : List (F K)) (i : ℕ) (cur : F K) (best : ℕ) (h : F.nan ∈ l) :
    argminLoop l i cur best = none := by
  induction l generalizing i cur best with
  | nil => simp at h
  | cons a l ih =>
    unfold argminLoop
    by_cases ha : (a.isNaN || cur.isNaN) = true
    · rw [if_pos ha]
    · rw [if_neg ha]
      have : F.nan ∈ l := by
        rcases List.mem_cons.1 h with h | h
        · exfalso; apply ha; rw [← h]; rfl
        · exact h
      split_ifs <;> exact ih _ _ _ this

theorem nearest_spec (b : List (F K)) (x : F K) (hne : b ≠ []) (hb : ∀ y ∈ b, (y - x).abs ≠ F.nan) :
    ∃ k y, nearest b x = some k ∧ k < b.length ∧ b[k]? = some y ∧
      ∀ (m : ℕ) z, b[m]? = some z → (y - x).abs ≤ (z - x).abs ∧ (m < k → (y - x).abs < (z - x).abs) := by
  unfold nearest
  obtain ⟨k, c, h1, h2, h3⟩ := argmin_spec (b.map fun y => (y - x).abs) (by simpa using hne)
    (by intro z hz; obtain ⟨y, hy, rfl⟩ := List.mem_map.1 hz; exact hb y hy)
  rw [List.getElem?_map] at h2
  cases hk : b[k]? with
  | none => rw [hk] at h2; cases h2
  | some y =>
    rw [hk] at h2
    simp only [Option.map_some, Option.some.injEq] at h2
    subst h2
    refine ⟨k, y, h1, ?_, hk, fun m z hz => h3 m _ (by rw [List.getElem?_map, hz]; rfl)⟩
    by_contra h
    rw [List.getElem?_eq_none (by omega)] at hk; cases hk

/-! ### Lawful rounding: no NaN inside -/

section lawful
variable [LawfulArith K]
open LawfulArith

theorem abs_ne_nan {a : F K} (h : a ≠ F.nan) : a.abs ≠ F.nan := by cases a <;> simp_all [F.abs]

theorem sub_fin_ne_nan {a : F K} (x : K) (h : a ≠ F.nan) : a - fin x ≠ F.nan := by
  cases a with
  | nan => exact absurd rfl h
  | ninf => intro e; cases e
  | pinf => intro e; cases e
  | fin y => rw [sub_fin]; exact rnd_ne_nan _

theorem add_fin_ne_nan {a : F K} (x : K) (h : a ≠ F.nan) : a + fin x ≠ F.nan := by
  cases a with
  | nan => exact absurd rfl h
  | ninf => intro e; cases e
  | pinf => intro e; cases e
  | fin y => rw [add_fin]; exact rnd_ne_nan _

theorem fin_add_ne_nan {a : F K} (x : K) (h : a ≠ F.nan) : fin x + a ≠ F.nan := by
  cases a with
  | nan => exact absurd rfl h
  | ninf => intro e; cases e
  | pinf => intro e; cases e
  | fin y => rw [add_fin]; exact rnd_ne_nan _

/-- `d / n` of a finite nonnegative representable `d` is finite. -/
theorem div_nat_fin {d : K} (hd : Rep d) (h0 : 0 ≤ d) {n : ℕ} (hn : 1 ≤ n) (hm : n ≤ 2 ^ 53) :
    ∃ s, fin d / (ofNat n : F K) = fin s ∧ 0 ≤ s ∧ s ≤ d := by
  have hn0 : (1 : K) ≤ n := by exact_mod_cast hn
  rw [ofNat_eq n hm, div_fin_ne _ (by linarith)]
  exact rnd_between rep_zero hd (div_nonneg h0 (by linarith)) (div_le_self h0 hn0)

theorem two_pi_fin : ∃ t : K, (ofNat 2 * F.pi : F K) = fin t ∧ 0 ≤ t ∧ Rep t := by
  have h2 := ofNat_eq (K := K) 2 (by norm_num)
  have h8 : Rep (8 : K) := by have := rep_nat (K := K) (n := 8) (by norm_num); simpa using this
  have hp := pi_pos (K := K)
  have hl := pi_le (K := K)
  rw [h2, F.pi, mul_fin]
  obtain ⟨y, hy, h0, _⟩ := rnd_between (x := ((2 : ℕ) : K) * Arith.piK) rep_zero h8
    (by push_cast; linarith) (by push_cast; linarith)
  exact ⟨y, hy, h0, rnd_idem _ _ hy⟩

theorem opos_ne_nan {n i : ℕ} (hn : 1 ≤ n) (hm : n ≤ 2 ^ 53) (hi : i < n) : (opos n i : F K) ≠ F.nan := by
  obtain ⟨t, ht, h0, hr⟩ := two_pi_fin (K := K)
  obtain ⟨s, hs, _⟩ := div_nat_fin hr h0 hn hm
  unfold opos
  simp only [ht, hs]
  rw [F.pi, neg_fin, ofNat_eq i (by omega), mul_fin]
  exact add_fin_ne_nan _ (fin_add_ne_nan _ (rnd_ne_nan _))

theorem zpos_ne_nan {lo hi d : K} (hd : fin hi - fin lo = (fin d : F K)) (h0 : 0 ≤ d) {n i : ℕ}
    (hn : 1 ≤ n) (hm : n ≤ 2 ^ 53) (hi' : i < n) : (zpos (fin lo, fin hi) n i : F K) ≠ F.nan := by
  have hr : Rep d := by rw [sub_fin] at hd; exact rnd_idem _ _ hd
  obtain ⟨s, hs, _⟩ := div_nat_fin hr h0 hn hm
  unfold zpos
  simp only [hd, hs]
  rw [ofNat_eq i (by omega), mul_fin]
  exact add_fin_ne_nan _ (add_fin_ne_nan _ (rnd_ne_nan _))

theorem sqrt_nonneg' (a : F K) (h : a.sqrt ≠ F.nan) : fin 0 ≤ a.sqrt := by
  cases a with
  | nan => exact absurd rfl h
  | ninf => exact absurd rfl h
  | pinf => rfl
  | fin x =>
    simp only [F.sqrt] at h ⊢
    split_ifs at h ⊢ with hx
    · exact absurd rfl h
    · exact LawfulArith.sqrt_nonneg x (not_lt.1 hx)

theorem sqrt_ne_nan {a : F K} (h : fin 0 ≤ a) : a.sqrt ≠ F.nan := by
  cases a with
  | nan => simp at h
  | ninf => simp at h
  | pinf => intro e; cases e
  | fin x =>
    simp only [F.sqrt]
    rw [if_neg (by rw [le_fin] at h; exact not_lt.2 h)]
    intro e
    have := LawfulArith.sqrt_nonneg x (by rw [le_fin] at h; exact h)
    rw [e] at this; simp at this

theorem mul_self_nonneg' {a : F K} (h : a ≠ F.nan) : fin 0 ≤ a * a := by
  cases a with
  | nan => exact absurd rfl h
  | ninf => rfl
  | pinf => rfl
  | fin x => rw [mul_fin]; exact fin_le_rnd rep_zero (mul_self_nonneg x)

theorem add_nonneg' {a b : F K} (ha : fin 0 ≤ a) (hb : fin 0 ≤ b) : fin 0 ≤ a + b := by
  cases a <;> cases b <;> first
    | rfl
    | (exfalso; simp at ha; done)
    | (exfalso; simp at hb; done)
    | skip
  rw [add_fin]
  rw [le_fin] at ha hb
  exact fin_le_rnd rep_zero (add_nonneg ha hb)

theorem div_nat_nonneg' {a : F K} (ha : fin 0 ≤ a) {n : ℕ} (hn : 1 ≤ n) (hm : n ≤ 2 ^ 53) :
    fin 0 ≤ a / (ofNat n : F K) := by
  have hn0 : (0 : K) < n := by exact_mod_cast hn
  rw [ofNat_eq n hm]
  cases a with
  | nan => simp at ha
  | ninf => simp at ha
  | pinf =>
    have : (pinf : F K) / fin (n : K) = if (n : K) < 0 then ninf else pinf := rfl
    rw [this, if_neg (not_lt.2 hn0.le)]; rfl
  | fin x =>
    rw [div_fin_ne _ hn0.ne']
    rw [le_fin] at ha
    exact fin_le_rnd rep_zero (div_nonneg ha hn0.le)

/-- Every radius of a shell list that starts at a nonnegative number is a nonnegative non-NaN. -/
theorem shells_nonneg {outer : F K} (ho : outer ≠ F.nan) {n : ℕ} (hn : 1 ≤ n) (hm : n ≤ 2 ^ 53) (m : ℕ)
    {inner : F K} (hi : fin 0 ≤ inner) : ∀ s ∈ shells outer n m inner, fin 0 ≤ s.1 ∧ fin 0 ≤ s.2 := by
  induction m generalizing inner with
  | zero => simp [shells]
  | succ m ih =>
    have hin : inner ≠ F.nan := by rintro rfl; simp at hi
    have hnext : fin 0 ≤ nextRadius outer n inner := by
      unfold nextRadius
      apply sqrt_nonneg'
      apply sqrt_ne_nan
      exact add_nonneg' (div_nat_nonneg' (mul_self_nonneg' ho) hn hm) (mul_self_nonneg' hin)
    intro s hs
    rw [shells] at hs
    rcases List.mem_cons.1 hs with rfl | hs
    · exact ⟨hi, hnext⟩
    · exact ih hnext s hs

/-- The angle is a finite number whenever the radius is not NaN. -/
theorem angle_fin (g : CylGeom K) (pos : Pos K) (h : (g.toCylindrical pos) 0 ≠ F.nan) :
    ∃ t, (g.toCylindrical pos) 1 = fin t := by
  unfold toCylindrical at h ⊢
  simp only [Matrix.cons_val_zero, Matrix.cons_val_one] at h ⊢
  generalize pos 0 - g.center 0 = x at h ⊢
  generalize pos 1 - g.center 1 = y at h ⊢
  cases x <;> cases y <;> first
    | exact ⟨0, rfl⟩
    | (exfalso; apply h; simp only [nan_mul, nan_add, add_nan]; rfl)
    | skip
  exact (atan2_range _ _).imp fun t ht => ht.1

end lawful
end CylGeom
end Up4
