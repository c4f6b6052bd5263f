import Verif.Model.Tools
import Verif.Proofs.Store
import Verif.Props.Sorting
import Verif.Props.Fields
import Verif.Props.Granular
import Verif.RealArith
import Verif.Binary64

set_option linter.unusedSectionVars false

/-! # C54, C55, C56: minmax, meshgrid, flatten, nan_mean, nan_std -/

namespace Up4
open F
open Selector (at')

variable {K : Type} [Field K] [LinearOrder K] [IsStrictOrderedRing K] [FloorRing K] [Arith K]

/-! ### C54 -/

theorem foldl_split {α β γ : Type} (f : α → γ → α) (g : β → γ → β) (l : List γ) (a : α) (b : β) :
    l.foldl (fun s v => (f s.1 v, g s.2 v)) (a, b) = (l.foldl f a, l.foldl g b) := by
  induction l generalizing a b with
  | nil => rfl
  | cons v l ih => rw [List.foldl_cons, ih]; rfl

theorem fold_min (l : List (F K)) (a : F K) (ha : a ≠ nan) :
    let m := l.foldl (fun s v => if v < s then v else s) a
    m ≤ a ∧ (∀ v ∈ l, v ≠ nan → m ≤ v) ∧ (m = a ∨ m ∈ l) := by
  induction l generalizing a with
  | nil => exact ⟨F.le_refl' ha, fun _ h => absurd h (by simp), Or.inl rfl⟩
  | cons v l ih =>
    dsimp only
    rw [List.foldl_cons]
    by_cases h : v < a
    · rw [if_pos h]
      have hv : v ≠ nan := by rintro rfl; cases a <;> cases h
      obtain ⟨h1, h2, h3⟩ := ih v hv
      refine ⟨F.le_trans' h1 (F.le_of_lt' h), ?_, Or.inr ?_⟩
      · intro w hw hn
        rcases List.mem_cons.1 hw with rfl | hw
        · exact h1
        · exact h2 w hw hn
      · rcases h3 with h3 | h3
        · rw [h3]; simp
        · simp [h3]
    · rw [if_neg h]
      obtain ⟨h1, h2, h3⟩ := ih a ha
      refine ⟨h1, ?_, ?_⟩
      · intro w hw hn
        rcases List.mem_cons.1 hw with rfl | hw
        · exact F.le_trans' h1 ((F.lt_or_le' hn ha).resolve_left h)
        · exact h2 w hw hn
      · rcases h3 with h3 | h3
        · exact Or.inl h3
        · exact Or.inr (by simp [h3])

theorem fold_max (l : List (F K)) (a : F K) (ha : a ≠ nan) :
    let m := l.foldl (fun s v => if v > s then v else s) a
    a ≤ m ∧ (∀ v ∈ l, v ≠ nan → v ≤ m) ∧ (m = a ∨ m ∈ l) := by
  induction l generalizing a with
  | nil => exact ⟨F.le_refl' ha, fun _ h => absurd h (by simp), Or.inl rfl⟩
  | cons v l ih =>
    dsimp only
    rw [List.foldl_cons]
    by_cases h : v > a
    · rw [if_pos h]
      have hv : v ≠ nan := by rintro rfl; cases a <;> cases h
      obtain ⟨h1, h2, h3⟩ := ih v hv
      refine ⟨F.le_trans' (F.le_of_lt' h) h1, ?_, Or.inr ?_⟩
      · intro w hw hn
        rcases List.mem_cons.1 hw with rfl | hw
        · exact h1
        · exact h2 w hw hn
      · rcases h3 with h3 | h3
        · rw [h3]; simp
        · simp [h3]
    · rw [if_neg h]
      obtain ⟨h1, h2, h3⟩ := ih a ha
      refine ⟨h1, ?_, ?_⟩
      · intro w hw hn
        rcases List.mem_cons.1 hw with rfl | hw
        · exact F.le_trans' ((F.lt_or_le' ha hn).resolve_left h) h1
        · exact h2 w hw hn
      · rcases h3 with h3 | h3
        · exact Or.inl h3
        · exact Or.inr (by simp [h3])

/-- **C54.** For an array of `f64` (finite values at most `f64::MAX`) with a non-NaN value other than `inf` and one other than `-inf` (so with a finite one):
`minmax` returns two elements of the array, between which all its non-NaN values lie. -/
theorem C54_minmax_partial (l : List (F K)) (hb : ∀ x, fin x ∈ l → -Arith.maxK ≤ x ∧ x ≤ Arith.maxK)
    (h1 : ∃ v ∈ l, v ≠ nan ∧ v ≠ pinf) (h2 : ∃ v ∈ l, v ≠ nan ∧ v ≠ ninf) :
    (minmax l).1 ∈ l ∧ (minmax l).2 ∈ l ∧ ∀ v ∈ l, v ≠ nan → (minmax l).1 ≤ v ∧ v ≤ (minmax l).2 := by
  have e : minmax l = (l.foldl (fun s v => if v < s then v else s) (fin Arith.maxK), l.foldl (fun s v => if v > s then v else s) (fin (-Arith.maxK))) :=
    foldl_split (fun s v => if v < s then v else s) (fun s v => if v > s then v else s) l _ _
  obtain ⟨a1, a2, a3⟩ := fold_min l (fin Arith.maxK) (by simp)
  obtain ⟨b1, b2, b3⟩ := fold_max l (fin (-Arith.maxK)) (by simp)
  rw [e]
  refine ⟨?_, ?_, fun v hv hn => ⟨a2 v hv hn, b2 v hv hn⟩⟩
  · rcases a3 with a3 | a3
    · obtain ⟨v, hv, hn, hp⟩ := h1
      have := a2 v hv hn
      rw [a3] at this ⊢
      cases v with
      | nan => exact absurd rfl hn
      | pinf => exact absurd rfl hp
      | ninf => cases this
      | fin x =>
        have : fin x = fin Arith.maxK := F.le_antisymm' ((F.le_fin _ _).2 (hb x hv).2) this
        rwa [← this]
    · exact a3
  · rcases b3 with b3 | b3
    · obtain ⟨v, hv, hn, hp⟩ := h2
      have := b2 v hv hn
      rw [b3] at this ⊢
      cases v with
      | nan => exact absurd rfl hn
      | ninf => exact absurd rfl hp
      | pinf => cases this
      | fin x =>
        have : fin x = fin (-Arith.maxK) := F.le_antisymm' this ((F.le_fin _ _).2 (hb x hv).1)
        rwa [← this]
    · exact b3

/-- Values 3, NaN, -1, inf: from -1 to inf. -/
example : minmax (K := ℝ) [fin 3, nan, fin (-1), pinf] = (fin (-1), pinf) := by
  have h := C54_minmax_partial (K := ℝ) [fin 3, nan, fin (-1), pinf]
    (by
      intro x hx
      have hm : (10 : ℝ) ≤ Arith.maxK := by
        rw [show (Arith.maxK : ℝ) = (2 ^ 53 - 1) * 2 ^ 971 from rfl]
        have : (1 : ℝ) ≤ 2 ^ 971 := one_le_pow₀ (by norm_num)
        generalize (2 : ℝ) ^ 971 = y at this
        linarith
      simp only [List.mem_cons, F.fin.injEq, reduceCtorEq, List.not_mem_nil, or_false, false_or] at hx
      rcases hx with rfl | rfl <;> constructor <;> linarith)
    ⟨fin 3, by simp⟩ ⟨fin 3, by simp⟩
  obtain ⟨h1, h2, h3⟩ := h
  have a := (h3 (fin (-1)) (by simp) (by simp)).1
  have b := (h3 pinf (by simp) (by simp)).2
  have hb : (minmax (K := ℝ) [fin 3, nan, fin (-1), pinf]).2 = pinf := by
    revert b; generalize (minmax (K := ℝ) [fin 3, nan, fin (-1), pinf]).2 = z; intro b
    cases z <;> first | rfl | cases b
  have ha : (minmax (K := ℝ) [fin 3, nan, fin (-1), pinf]).1 = fin (-1) := by
    revert a h1; generalize (minmax (K := ℝ) [fin 3, nan, fin (-1), pinf]).1 = z; intro h1 a
    simp only [List.mem_cons, List.not_mem_nil, or_false] at h1
    rcases h1 with rfl | rfl | rfl | rfl
    · rw [F.le_fin] at a; norm_num at a
    · cases a
    · rfl
    · cases a
  exact Prod.ext ha hb

/-- **C54 is false of the code** for arrays without a finite value: the minimum of `[inf]` is reported as `f64::MAX`, which is not in the array; and an array
of NaNs (or none) gives `f64::MAX` and `f64::MIN`, a minimum above the maximum. -/
theorem C54_false : minmax ([pinf] : List (F K)) = (fin Arith.maxK, pinf) ∧ (fin Arith.maxK : F K) ∉ ([pinf] : List (F K)) ∧
    minmax ([nan] : List (F K)) = (fin Arith.maxK, fin (-Arith.maxK)) := by
  refine ⟨rfl, by simp, rfl⟩

/-! ### C55 -/

theorem foldlM_flatMap' {α β σ : Type} (l : List α) (f : α → List β) (g : σ → β → Run σ) (s : σ) :
    (l.flatMap f).foldlM g s = l.foldlM (fun s x => (f x).foldlM g s) s := by
  induction l generalizing s with
  | nil => rfl
  | cons x l ih =>
    rw [List.flatMap_cons, List.foldlM_append, List.foldlM_cons]
    congr 1
    funext s
    exact ih s

/-- Writing a value to every index of a list, in an array of shape `S`. -/
def filled {n : ℕ} (S : Fin n → ℕ) (l : List (Fin n → ℕ)) (v : (Fin n → ℕ) → F K) : Arr n (F K) := ⟨S, fun i => if i ∈ l then v i else 0⟩

theorem filled_write {n : ℕ} (S : Fin n → ℕ) (l : List (Fin n → ℕ)) (v : (Fin n → ℕ) → F K) (i : Fin n → ℕ) (h : InB S i) :
    (filled S l v).write i (v i) = .ok (filled S (l ++ [i]) v) := by
  rw [Arr.write_ok _ h]
  unfold filled
  congr 2
  funext j
  by_cases hj : j = i
  · subst hj; simp
  · rw [Function.update_of_ne hj]; simp [hj]

theorem fill2 {n : ℕ} (S : Fin n → ℕ) (v w : (Fin n → ℕ) → F K) (body : Arr n (F K) × Arr n (F K) → (Fin n → ℕ) → Run (Arr n (F K) × Arr n (F K)))
    (l done : List (Fin n → ℕ))
    (hb : ∀ s i, i ∈ l → body s i = (do
      let a ← s.1.write i (v i)
      let b ← s.2.write i (w i)
      pure (a, b))) (hl : ∀ i ∈ l, InB S i) :
    l.foldlM body (filled S done v, filled S done w) = (.ok (filled S (done ++ l) v, filled S (done ++ l) w) : Run _) := by
  induction l generalizing done with
  | nil => rw [List.append_nil]; rfl
  | cons i l ih =>
    rw [List.foldlM_cons, hb _ i (by simp), filled_write _ _ _ _ (hl i (by simp)), run_bind_ok, filled_write _ _ _ _ (hl i (by simp)), run_bind_ok,
      run_pure, run_bind_ok, ih (done ++ [i]) (fun s j hj => hb s j (by simp [hj])) (fun j hj => hl j (by simp [hj])), List.append_assoc]
    rfl

theorem fill3 {n : ℕ} (S : Fin n → ℕ) (v w u : (Fin n → ℕ) → F K)
    (body : Arr n (F K) × Arr n (F K) × Arr n (F K) → (Fin n → ℕ) → Run (Arr n (F K) × Arr n (F K) × Arr n (F K)))
    (l done : List (Fin n → ℕ))
    (hb : ∀ s i, i ∈ l → body s i = (do
      let a ← s.1.write i (v i)
      let b ← s.2.1.write i (w i)
      let c ← s.2.2.write i (u i)
      pure (a, b, c))) (hl : ∀ i ∈ l, InB S i) :
    l.foldlM body (filled S done v, filled S done w, filled S done u) = (.ok (filled S (done ++ l) v, filled S (done ++ l) w, filled S (done ++ l) u) : Run _) := by
  induction l generalizing done with
  | nil => rw [List.append_nil]; rfl
  | cons i l ih =>
    rw [List.foldlM_cons, hb _ i (by simp), filled_write _ _ _ _ (hl i (by simp)), run_bind_ok, filled_write _ _ _ _ (hl i (by simp)), run_bind_ok,
      filled_write _ _ _ _ (hl i (by simp)), run_bind_ok,
      run_pure, run_bind_ok, ih (done ++ [i]) (fun s j hj => hb s j (by simp [hj])) (fun j hj => hl j (by simp [hj])), List.append_assoc]
    rfl

/-- **C55, two axes.** Arrays of shape `(|x|, |y|)` with `xx[i,j] = x[i]` and `yy[i,j] = y[j]`. -/
theorem C55_meshgrid (x y : List (F K)) : ∃ xx yy, meshgrid x y = .ok (xx, yy) ∧ xx.shape = ![x.length, y.length] ∧ yy.shape = ![x.length, y.length] ∧
    ∀ i j, (hi : i < x.length) → (hj : j < y.length) → xx.get ![i, j] = x[i] ∧ yy.get ![i, j] = y[j] := by
  set l : List (Fin 2 → ℕ) := (List.range x.length).flatMap fun i => (List.range y.length).map fun j => ![i, j] with hl
  have hmem : ∀ i j, ![i, j] ∈ l ↔ i < x.length ∧ j < y.length := by
    intro i j
    rw [hl, List.mem_flatMap]
    constructor
    · rintro ⟨a, ha, h⟩
      obtain ⟨b, hb, h⟩ := List.mem_map.1 h
      have h0 := congrFun h 0
      have h1 := congrFun h 1
      simp only [Matrix.cons_val_zero, Matrix.cons_val_one] at h0 h1
      subst h0 h1
      exact ⟨List.mem_range.1 ha, List.mem_range.1 hb⟩
    · rintro ⟨h1, h2⟩
      exact ⟨i, List.mem_range.2 h1, List.mem_map.2 ⟨j, List.mem_range.2 h2, rfl⟩⟩
  have hform : ∀ c ∈ l, ∃ i j, c = ![i, j] := by
    intro c hc
    obtain ⟨a, _, h⟩ := List.mem_flatMap.1 hc
    obtain ⟨b, _, h⟩ := List.mem_map.1 h
    exact ⟨a, b, h.symm⟩
  have e : meshgrid x y = l.foldlM (fun (s : Arr 2 (F K) × Arr 2 (F K)) c => do
      let a ← s.1.write c (← at' x (c 0))
      let b ← s.2.write c (← at' y (c 1))
      pure (a, b)) (filled ![x.length, y.length] [] (fun c => x.getD (c 0) 0), filled ![x.length, y.length] [] (fun c => y.getD (c 1) 0)) := by
    rw [hl, foldlM_flatMap']
    unfold meshgrid
    simp only [List.foldlM_map]
    rfl
  have hf := fill2 (K := K) ![x.length, y.length] (fun c => x.getD (c 0) 0) (fun c => y.getD (c 1) 0) (fun (s : Arr 2 (F K) × Arr 2 (F K)) c => do
      let a ← s.1.write c (← at' x (c 0))
      let b ← s.2.write c (← at' y (c 1))
      pure (a, b)) l [] (by
        intro s c hc
        obtain ⟨i, j, rfl⟩ := hform c hc
        obtain ⟨h1, h2⟩ := (hmem i j).1 hc
        simp only [Matrix.cons_val_zero, Matrix.cons_val_one]
        rw [at_some h1, run_bind_ok, at_some h2, getD_lt _ h1, getD_lt _ h2]
        rfl) (by
        intro c hc
        obtain ⟨i, j, rfl⟩ := hform c hc
        obtain ⟨h1, h2⟩ := (hmem i j).1 hc
        intro a
        fin_cases a
        · exact h1
        · exact h2)
  rw [hf] at e
  refine ⟨_, _, e, rfl, rfl, ?_⟩
  intro i j hi hj
  have hm := (hmem i j).2 ⟨hi, hj⟩
  constructor
  · change (if ![i, j] ∈ [] ++ l then x.getD i 0 else 0) = x[i]
    rw [List.nil_append, if_pos hm, getD_lt _ hi]
  · change (if ![i, j] ∈ [] ++ l then y.getD j 0 else 0) = y[j]
    rw [List.nil_append, if_pos hm, getD_lt _ hj]

/-- **C55, three axes.** -/
theorem C55_meshgrid3 (x y z : List (F K)) : ∃ xx yy zz, meshgrid3 x y z = .ok (xx, yy, zz) ∧ xx.shape = ![x.length, y.length, z.length] ∧
    yy.shape = ![x.length, y.length, z.length] ∧ zz.shape = ![x.length, y.length, z.length] ∧
    ∀ i j k, (hi : i < x.length) → (hj : j < y.length) → (hk : k < z.length) →
      xx.get ![i, j, k] = x[i] ∧ yy.get ![i, j, k] = y[j] ∧ zz.get ![i, j, k] = z[k] := by
  set l : List (Fin 3 → ℕ) := (List.range x.length).flatMap fun i => (List.range y.length).flatMap fun j => (List.range z.length).map fun k => ![i, j, k] with hl
  have hmem : ∀ i j k, ![i, j, k] ∈ l ↔ i < x.length ∧ j < y.length ∧ k < z.length := by
    intro i j k
    rw [hl, List.mem_flatMap]
    constructor
    · rintro ⟨a, ha, h⟩
      obtain ⟨b, hb, h⟩ := List.mem_flatMap.1 h
      obtain ⟨c, hc, h⟩ := List.mem_map.1 h
      have h0 : a = i := congrFun h 0
      have h1 : b = j := congrFun h 1
      have h2 : c = k := congrFun h 2
      subst h0 h1 h2
      exact ⟨List.mem_range.1 ha, List.mem_range.1 hb, List.mem_range.1 hc⟩
    · rintro ⟨h1, h2, h3⟩
      exact ⟨i, List.mem_range.2 h1, List.mem_flatMap.2 ⟨j, List.mem_range.2 h2, List.mem_map.2 ⟨k, List.mem_range.2 h3, rfl⟩⟩⟩
  have hform : ∀ c ∈ l, ∃ i j k, c = ![i, j, k] := by
    intro c hc
    obtain ⟨a, _, h⟩ := List.mem_flatMap.1 hc
    obtain ⟨b, _, h⟩ := List.mem_flatMap.1 h
    obtain ⟨d, _, h⟩ := List.mem_map.1 h
    exact ⟨a, b, d, h.symm⟩
  have e : meshgrid3 x y z = l.foldlM (fun (s : Arr 3 (F K) × Arr 3 (F K) × Arr 3 (F K)) c => do
      let a ← s.1.write c (← at' x (c 0))
      let b ← s.2.1.write c (← at' y (c 1))
      let d ← s.2.2.write c (← at' z (c 2))
      pure (a, b, d)) (filled ![x.length, y.length, z.length] [] (fun c => x.getD (c 0) 0), filled ![x.length, y.length, z.length] [] (fun c => y.getD (c 1) 0),
        filled ![x.length, y.length, z.length] [] (fun c => z.getD (c 2) 0)) := by
    rw [hl, foldlM_flatMap']
    unfold meshgrid3
    simp only [foldlM_flatMap', List.foldlM_map]
    rfl
  have hf := fill3 (K := K) ![x.length, y.length, z.length] (fun c => x.getD (c 0) 0) (fun c => y.getD (c 1) 0) (fun c => z.getD (c 2) 0)
    (fun (s : Arr 3 (F K) × Arr 3 (F K) × Arr 3 (F K)) c => do
      let a ← s.1.write c (← at' x (c 0))
      let b ← s.2.1.write c (← at' y (c 1))
      let d ← s.2.2.write c (← at' z (c 2))
      pure (a, b, d)) l [] (by
        intro s c hc
        obtain ⟨i, j, k, rfl⟩ := hform c hc
        obtain ⟨h1, h2, h3⟩ := (hmem i j k).1 hc
        change (do
          let a ← s.1.write ![i, j, k] (← at' x i)
          let b ← s.2.1.write ![i, j, k] (← at' y j)
          let d ← s.2.2.write ![i, j, k] (← at' z k)
          pure (a, b, d)) = (do
          let a ← s.1.write ![i, j, k] (x.getD i 0)
          let b ← s.2.1.write ![i, j, k] (y.getD j 0)
          let d ← s.2.2.write ![i, j, k] (z.getD k 0)
          pure (a, b, d))
        rw [at_some h1, run_bind_ok, at_some h2, at_some h3, getD_lt _ h1, getD_lt _ h2, getD_lt _ h3]
        rfl) (by
        intro c hc
        obtain ⟨i, j, k, rfl⟩ := hform c hc
        obtain ⟨h1, h2, h3⟩ := (hmem i j k).1 hc
        intro a
        fin_cases a
        · exact h1
        · exact h2
        · exact h3)
  rw [hf] at e
  refine ⟨_, _, _, e, rfl, rfl, rfl, ?_⟩
  intro i j k hi hj hk
  have hm := (hmem i j k).2 ⟨hi, hj, hk⟩
  refine ⟨?_, ?_, ?_⟩
  · change (if ![i, j, k] ∈ [] ++ l then x.getD i 0 else 0) = x[i]
    rw [List.nil_append, if_pos hm, getD_lt _ hi]
  · change (if ![i, j, k] ∈ [] ++ l then y.getD j 0 else 0) = y[j]
    rw [List.nil_append, if_pos hm, getD_lt _ hj]
  · change (if ![i, j, k] ∈ [] ++ l then z.getD k 0 else 0) = z[k]
    rw [List.nil_append, if_pos hm, getD_lt _ hk]

theorem getElem?_flatMap_even {α β : Type} (l : List α) (f : α → List β) (m : ℕ) (hf : ∀ x, (f x).length = m) (i j : ℕ) (hj : j < m) :
    (l.flatMap f)[i * m + j]? = (l[i]?).bind fun x => (f x)[j]? := by
  induction l generalizing i with
  | nil => simp
  | cons x l ih =>
    rw [List.flatMap_cons]
    cases i with
    | zero => rw [List.getElem?_append_left (by rw [hf]; omega)]; simp
    | succ i =>
      rw [List.getElem?_append_right (by rw [hf, Nat.succ_mul]; omega), hf, show (i + 1) * m + j - m = i * m + j by rw [Nat.succ_mul]; omega, ih]
      simp

/-- **C55, flattening a table**: entry `i * m + j` of the list is `a[i,j]`, and there are `n * m` of them. -/
theorem C55_flatten2 (a : Arr 2 (F K)) (n m : ℕ) (hs : a.shape = ![n, m]) : (flatten a).length = n * m ∧
    ∀ i j, i < n → j < m → (flatten a)[i * m + j]? = some (a.get ![i, j]) := by
  unfold flatten
  rw [hs]
  constructor
  · rw [List.length_map, length_indices]; simp
  · intro i j hi hj
    rw [List.getElem?_map]
    have e : indices 2 ![n, m] = (List.range n).flatMap fun k => (indices 1 ![m]).map (Fin.cons k) := rfl
    have hl1 : ∀ k : ℕ, ((indices 1 ![m]).map (Fin.cons (α := fun _ : Fin 2 => ℕ) k)).length = m := by intro k; rw [List.length_map, length_indices]; simp
    have e1 : indices 1 ![m] = (List.range m).map fun k => ![k] := by
      change (List.range m).flatMap (fun k => [Fin.cons (α := fun _ : Fin 1 => ℕ) k Fin.elim0]) = _
      rw [show (List.range m).map (fun k => (![k] : Fin 1 → ℕ)) = (List.range m).flatMap fun k => [![k]] from (List.flatMap_pure_eq_map _ _).symm]
      congr 1
    rw [e, getElem?_flatMap_even _ _ m hl1 i j hj, List.getElem?_range hi, e1, Option.bind_some, List.getElem?_map, List.getElem?_map, List.getElem?_range hj]
    rfl

/-- **C55, flattening a block**: entry `(i * m + j) * l + k` of the list is `a[i,j,k]`, and there are `n * m * l` of them. -/
theorem C55_flatten3 (a : Arr 3 (F K)) (n m l : ℕ) (hs : a.shape = ![n, m, l]) : (flatten a).length = n * m * l ∧
    ∀ i j k, i < n → j < m → k < l → (flatten a)[(i * m + j) * l + k]? = some (a.get ![i, j, k]) := by
  unfold flatten
  rw [hs]
  constructor
  · rw [List.length_map, length_indices]; simp [Fin.prod_univ_three]
  · intro i j k hi hj hk
    rw [List.getElem?_map]
    have e : indices 3 ![n, m, l] = (List.range n).flatMap fun q => (indices 2 ![m, l]).map (Fin.cons q) := rfl
    have hl1 : ∀ q : ℕ, ((indices 2 ![m, l]).map (Fin.cons (α := fun _ : Fin 3 => ℕ) q)).length = m * l := by intro q; rw [List.length_map, length_indices]; simp
    have h2 := (C55_flatten2 (K := K) ⟨![m, l], fun c => F.ofNat 0⟩ m l rfl).1
    have hidx : (indices 2 ![m, l])[j * l + k]? = some ![j, k] := by
      have e : indices 2 ![m, l] = (List.range m).flatMap fun k => (indices 1 ![l]).map (Fin.cons k) := rfl
      have hl1 : ∀ k : ℕ, ((indices 1 ![l]).map (Fin.cons (α := fun _ : Fin 2 => ℕ) k)).length = l := by intro k; rw [List.length_map, length_indices]; simp
      have e1 : indices 1 ![l] = (List.range l).map fun k => ![k] := by
        change (List.range l).flatMap (fun k => [Fin.cons (α := fun _ : Fin 1 => ℕ) k Fin.elim0]) = _
        rw [show (List.range l).map (fun k => (![k] : Fin 1 → ℕ)) = (List.range l).flatMap fun k => [![k]] from (List.flatMap_pure_eq_map _ _).symm]
        congr 1
      rw [e, getElem?_flatMap_even _ _ l hl1 j k hk, List.getElem?_range hj, e1, Option.bind_some, List.getElem?_map, List.getElem?_map, List.getElem?_range hk]
      rfl
    have hjk : j * l + k < m * l := by nlinarith
    rw [show (i * m + j) * l + k = i * (m * l) + (j * l + k) by ring, e, getElem?_flatMap_even _ _ (m * l) hl1 i _ hjk, List.getElem?_range hi,
      Option.bind_some, List.getElem?_map, hidx]
    rfl

/-- Mesh of two and three points. -/
example : ∃ xx yy, meshgrid (K := ℝ) [fin 1, fin 2] [fin 3, fin 4, fin 5] = .ok (xx, yy) ∧ xx.get ![1, 0] = fin 2 ∧ yy.get ![1, 2] = fin 5 ∧ (flatten yy).length = 6 := by
  obtain ⟨xx, yy, h, hs, hs', hg⟩ := C55_meshgrid (K := ℝ) [fin 1, fin 2] [fin 3, fin 4, fin 5]
  exact ⟨xx, yy, h, (hg 1 0 (by simp) (by simp)).1, (hg 1 2 (by simp) (by simp)).2, (C55_flatten2 yy 2 3 hs').1⟩

/-! ### C56 -/

theorem nan_fold (l : List (F K)) (g : F K → F K) (a : F K) (n : ℕ) :
    l.foldl (fun (s : F K × ℕ) v => if v.isNaN = false then (s.1 + g v, s.2 + 1) else s) (a, n) =
      ((l.filter fun v => !v.isNaN).foldl (fun s v => s + g v) a, n + (l.filter fun v => !v.isNaN).length) := by
  induction l generalizing a n with
  | nil => rfl
  | cons v l ih =>
    rw [List.foldl_cons]
    cases h : v.isNaN with
    | true =>
      rw [if_neg (by simp), ih, List.filter_cons_of_neg (by simp [h])]
    | false =>
      rw [if_pos rfl, ih, List.filter_cons_of_pos (by simp [h])]
      rw [List.foldl_cons, List.length_cons]
      congr 1
      omega

/-- **C56** (any arithmetic): the mean and standard deviation are those of the non-NaN entries. -/
theorem C56_skip (l : List (F K)) : nanMean l = nanMean (l.filter fun v => !v.isNaN) ∧ nanStd l = nanStd (l.filter fun v => !v.isNaN) := by
  have hm : nanMean l = nanMean (l.filter fun v => !v.isNaN) := by
    unfold nanMean
    rw [nan_fold l (fun v => v), nan_fold (l.filter fun v => !v.isNaN) (fun v => v), List.filter_filter]
    simp
  refine ⟨hm, ?_⟩
  unfold nanStd
  dsimp only
  rw [← hm, nan_fold l (fun v => F.sq (v - nanMean l)), nan_fold (l.filter fun v => !v.isNaN) (fun v => F.sq (v - nanMean l)), List.filter_filter]
  simp

/-- Arithmetic mean. -/
def meanOf (xs : List K) : K := xs.sum / xs.length

/-- Population variance. -/
def varOf (xs : List K) : K := (xs.map fun x => (x - meanOf xs) * (x - meanOf xs)).sum / xs.length

/-- **C56** in exact arithmetic: for an array whose non-NaN entries are the finite numbers `xs`, at least one, `nan_mean` is their mean and `nan_std` the nonnegative
root of their variance. -/
theorem C56_value [ExactArith K] (l : List (F K)) (xs : List K) (h : l.filter (fun v => !v.isNaN) = xs.map fin) (hne : xs ≠ []) :
    nanMean l = fin (meanOf xs) ∧ ∃ s, nanStd l = fin s ∧ 0 ≤ s ∧ s * s = varOf xs := by
  have hlen : (xs.length : K) ≠ 0 := Nat.cast_ne_zero.2 (by simpa using hne)
  have hm : nanMean l = fin (meanOf xs) := by
    unfold nanMean
    rw [nan_fold l (fun v => v), h]
    dsimp only
    have : (xs.map fin).foldl (fun s v => s + v) (0 : F K) = fin xs.sum := sum_fin xs
    rw [this, List.length_map, Nat.zero_add, F.eofNat, F.ediv _ hlen]
    rfl
  refine ⟨hm, ?_⟩
  unfold nanStd
  dsimp only
  rw [hm, nan_fold l (fun v => F.sq (v - fin (meanOf xs))), h]
  dsimp only
  have hs : (xs.map fin).foldl (fun s v => s + F.sq (v - fin (meanOf xs))) (0 : F K) = fin (xs.map fun x => (x - meanOf xs) * (x - meanOf xs)).sum := by
    have := sum_fin (xs.map fun x => (x - meanOf xs) * (x - meanOf xs))
    rw [← this]
    unfold F.sum
    rw [List.foldl_map, List.foldl_map, List.foldl_map]
    congr 1
    funext s x
    rw [F.esub]
    unfold F.sq
    rw [F.emul]
  rw [hs, List.length_map, Nat.zero_add, F.eofNat, F.ediv _ hlen]
  have hnn : 0 ≤ varOf xs := by
    unfold varOf
    apply div_nonneg _ (Nat.cast_nonneg _)
    apply List.sum_nonneg
    intro y hy
    obtain ⟨x, _, rfl⟩ := List.mem_map.1 hy
    exact mul_self_nonneg _
  exact sqrt_root hnn

/-- **C56**, nothing to average: NaN. -/
theorem C56_none [LawfulArith K] (l : List (F K)) (h : ∀ v ∈ l, v = nan) : nanMean l = nan ∧ nanStd l = nan := by
  have hf : l.filter (fun v => !v.isNaN) = [] := by
    rw [List.filter_eq_nil_iff]
    intro v hv
    rw [h v hv]
    simp [F.isNaN]
  have h0 : (0 : F K) / F.ofNat 0 = nan := by
    have : (F.ofNat 0 : F K) = fin 0 := by have := F.rnd_nat (K := K) 0 (by omega); unfold F.ofNat; rw [this, Nat.cast_zero]
    rw [this, F.zero_def, F.div_fin, if_pos rfl]
    simp [F.infTimes]
  constructor
  · unfold nanMean
    rw [nan_fold l (fun v => v), hf]
    exact h0
  · unfold nanStd
    dsimp only
    rw [nan_fold l (fun v => F.sq (v - nanMean l)), hf]
    dsimp only
    rw [List.foldl_nil, List.length_nil, Nat.zero_add, h0]
    rfl

/-- Entries 1, NaN, 3: mean 2, standard deviation 1. -/
example : nanMean (K := ℝ) [fin 1, nan, fin 3] = fin 2 ∧ nanStd (K := ℝ) [fin 1, nan, fin 3] = fin 1 := by
  obtain ⟨h1, s, h2, h3, h4⟩ := C56_value (K := ℝ) [fin 1, nan, fin 3] [1, 3] (by simp [F.isNaN, List.filter]) (by simp)
  have hmean : meanOf [(1 : ℝ), 3] = 2 := by simp [meanOf]; norm_num
  refine ⟨by rw [h1, hmean], ?_⟩
  have hv : varOf [(1 : ℝ), 3] = 1 := by simp [varOf, hmean]; norm_num
  rw [hv] at h4
  rw [h2]
  congr 1
  nlinarith

end Up4
