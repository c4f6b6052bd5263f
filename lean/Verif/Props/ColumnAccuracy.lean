import Verif.Proofs.ColumnAccuracy
import Verif.Props.ColumnMeans
import Verif.Props.Accuracy

set_option linter.unusedSectionVars false

/-!
# C119: depth averages in binary64

`collapse` and `collapse_two` of mean fields when every operation rounds.
-/

namespace Up4
open F

variable {K : Type} [Field K] [LinearOrder K] [IsStrictOrderedRing K] [FloorRing K] [Arith K]

/-- An array of means that are nearly right: entry `i` has the weight `cnt i`, and if that is not zero the data entry is close to `U i / cnt i`, with an error of `G`
times `A i / cnt i` and `κ`. -/
structure NearMeans {n : ℕ} (data weight : Arr n (F K)) (cnt : (Fin n → ℕ) → ℕ) (U A : (Fin n → ℕ) → K) (G κ : K) : Prop where
  weights : ∀ i, InB data.shape i → weight.get i = fin (cnt i : K)
  empty : ∀ i, InB data.shape i → cnt i = 0 → data.get i = F.nan
  near : ∀ i, InB data.shape i → cnt i ≠ 0 → ∃ y, data.get i = fin y ∧ |y - U i / cnt i| ≤ G * (A i / cnt i) + κ
  bound : ∀ i, InB data.shape i → |U i| ≤ A i ∧ A i ≤ cnt i * (2 * large K)

theorem column_empty [LawfulArith K] (cyl : Bool) (m : ℕ) (n : ℕ → ℕ) (d : ℕ → F K) (hempty : ∀ k < m, n k = 0 → d k = F.nan)
    (h0 : ∀ k < m, n k = 0) :
    let r := Store.collapseFold cyl d (fun k => fin (n k : K)) m
    r.1 / r.2 = F.nan := by
  intro r
  have hz : ∀ l : List ℕ, F.sum (l.map fun _ => (fin 0 : F K)) = fin 0 := by
    intro l
    have := sum_counts (K := K) (l.map fun _ => 0) 0 (by simp)
    rw [List.map_map, Nat.cast_zero] at this
    have e : (0 + (l.map fun _ => 0).sum : ℕ) = 0 := by simp
    rw [e, Nat.cast_zero] at this
    refine Eq.trans ?_ this
    unfold F.sum
    rw [F.zero_def]
    congr 1
    exact List.map_congr_left fun _ _ => by simp
  have e1 : r.1 = fin 0 := by
    change (Store.collapseFold cyl d (fun k => fin (n k : K)) m).1 = _
    rw [collapseFold_sums]
    dsimp only
    rw [← hz (List.range m)]
    congr 1
    refine List.map_congr_left fun k hk => ?_
    have hk := List.mem_range.1 hk
    rw [hempty k hk (h0 k hk), h0 k hk]
    change ((fin 0 : F K) * fin ((0 : ℕ) : K)) = fin 0
    rw [F.mul_fin, Nat.cast_zero, mul_zero, F.rnd_zero]
  have e2 : r.2 = fin 0 := by
    change (Store.collapseFold cyl d (fun k => fin (n k : K)) m).2 = _
    rw [collapseFold_sums]
    dsimp only
    rw [← hz (List.range m)]
    congr 1
    refine List.map_congr_left fun k hk => ?_
    rw [h0 k (List.mem_range.1 hk), Nat.cast_zero]
  rw [e1, e2]
  simp [div_fin, infTimes]

theorem nat_sum (m : ℕ) (f : ℕ → ℕ) : ((List.range m).map f).sum = ∑ k ∈ Finset.range m, f k := by
  induction m with
  | zero => simp
  | succ m ih => rw [List.range_succ, List.map_append, List.sum_append, ih, Finset.sum_range_succ]; simp

/-- Collapsing an array of near means gives near means. -/
theorem collapse_near [LawfulArith K] [RoundedArith K] {n : ℕ} (cyl : Bool) (data weight : Arr (n + 1) (F K)) (hs : weight.shape = data.shape)
    (cnt : (Fin (n + 1) → ℕ) → ℕ) (U A : (Fin (n + 1) → ℕ) → K) (G κ : K) (h : NearMeans data weight cnt U A G κ) (a : Fin (n + 1))
    (hm : data.shape a < 2 ^ 52) (hG0 : 0 ≤ G) (hG1 : G ≤ 1) (hκ0 : 0 ≤ κ) (hκ1 : κ ≤ 1)
    (hN : ∀ idx, InB (fun j => data.shape (a.succAbove j)) idx → ∑ k ∈ Finset.range (data.shape a), cnt (a.insertNth k idx) < 2 ^ 52) :
    ∃ r w, Store.collapse cyl data weight a = .ok r ∧ Store.collapseWeight weight a = .ok w ∧
      r.shape = (fun j => data.shape (a.succAbove j)) ∧ w.shape = r.shape ∧
      NearMeans r w (fun idx => ∑ k ∈ Finset.range (data.shape a), cnt (a.insertNth k idx)) (fun idx => ∑ k ∈ Finset.range (data.shape a), U (a.insertNth k idx))
        (fun idx => ∑ k ∈ Finset.range (data.shape a), A (a.insertNth k idx)) (G + (2 * data.shape a + 4) / 2 ^ 52) (4 * κ + speck K) := by
  unfold Store.collapse Store.collapseWeight
  rw [dif_pos a.isLt, dif_pos a.isLt]
  refine ⟨_, _, rfl, rfl, rfl, ?_, ?_⟩
  · rw [hs]
  have hin : ∀ idx, InB (fun j => data.shape (a.succAbove j)) idx → ∀ k < data.shape a, InB data.shape (a.insertNth k idx : Fin (n + 1) → ℕ) :=
    fun idx hidx k hk => (insertNth_inB a).2 ⟨hk, hidx⟩
  have hfold : ∀ idx, InB (fun j => data.shape (a.succAbove j)) idx →
      Store.collapseFold cyl (fun k => data.get (a.insertNth k idx)) (fun k => weight.get (a.insertNth k idx)) (data.shape a) =
      Store.collapseFold cyl (fun k => data.get (a.insertNth k idx)) (fun k => fin (cnt (a.insertNth k idx) : K)) (data.shape a) := by
    intro idx hidx
    unfold Store.collapseFold
    refine List.foldl_ext _ _ _ fun acc k hk => ?_
    dsimp only
    rw [h.weights _ (hin idx hidx k (List.mem_range.1 hk))]
  have hUn : ∀ i, InB data.shape i → (cnt i : K) * (U i / cnt i) = U i ∧ (cnt i : K) * (A i / cnt i) = A i := by
    intro i hi
    obtain ⟨h1, h2⟩ := h.bound i hi
    by_cases h0 : cnt i = 0
    · rw [h0, Nat.cast_zero, zero_mul] at h2
      have hU : U i = 0 := abs_nonpos_iff.1 (h1.trans h2)
      have hA : A i = 0 := le_antisymm h2 ((abs_nonneg _).trans h1)
      rw [hU, hA]
      simp
    · have : (cnt i : K) ≠ 0 := Nat.cast_ne_zero.2 h0
      exact ⟨mul_div_cancel₀ _ this, mul_div_cancel₀ _ this⟩
  refine ⟨?_, ?_, ?_, ?_⟩
  · intro idx hidx
    change (List.range (weight.shape a)).foldl (fun acc k => acc + weight.get (a.insertNth k idx)) 0 = _
    rw [hs]
    have e1 : (List.range (data.shape a)).foldl (fun acc k => acc + weight.get (a.insertNth k idx)) 0 =
        ((List.range (data.shape a)).map fun k => fin (cnt (a.insertNth k idx) : K)).foldl (· + ·) 0 := by
      rw [List.foldl_map]
      refine List.foldl_ext _ _ _ fun acc k hk => ?_
      rw [h.weights _ (hin idx hidx k (List.mem_range.1 hk))]
    have := sum_counts (K := K) ((List.range (data.shape a)).map fun k => cnt (a.insertNth k idx)) 0 (by
      rw [nat_sum]
      have := hN idx hidx
      omega)
    rw [List.map_map, Nat.cast_zero, zero_add, nat_sum] at this
    rw [e1]
    exact this
  · intro idx hidx h0
    have hidx' : InB (fun j => data.shape (a.succAbove j)) idx := hidx
    change (Store.collapseFold cyl _ _ (data.shape a)).1 / (Store.collapseFold cyl _ _ (data.shape a)).2 = _
    simp only [Fin.eta]
    rw [hfold idx hidx']
    refine column_empty cyl _ (fun k => cnt (a.insertNth k idx)) _ (fun k hk h => ?_) fun k hk => ?_
    · exact ‹NearMeans data weight cnt U A G κ›.empty _ (hin idx hidx' k hk) h
    · exact Finset.sum_eq_zero_iff.1 h0 k (Finset.mem_range.2 hk)
  · intro idx hidx h0
    have hidx' : InB (fun j => data.shape (a.succAbove j)) idx := hidx
    change ∃ y, (Store.collapseFold cyl _ _ (data.shape a)).1 / (Store.collapseFold cyl _ _ (data.shape a)).2 = _ ∧ _
    simp only [Fin.eta]
    rw [hfold idx hidx']
    have key := column_accurate cyl (data.shape a) hm (fun k => cnt (a.insertNth k idx)) (fun k => data.get (a.insertNth k idx))
      (fun k => U (a.insertNth k idx) / cnt (a.insertNth k idx)) (fun k => A (a.insertNth k idx) / cnt (a.insertNth k idx)) G κ hG0 hG1 hκ0 hκ1
      (fun k hk => h.empty _ (hin idx hidx' k hk)) (fun k hk => h.near _ (hin idx hidx' k hk))
      (fun k hk => by
        rw [abs_div, Nat.abs_cast]
        exact div_le_div_of_nonneg_right (h.bound _ (hin idx hidx' k hk)).1 (Nat.cast_nonneg _))
      (fun k hk => by
        by_cases h0 : cnt (a.insertNth k idx) = 0
        · rw [h0, Nat.cast_zero, div_zero]
          exact mul_nonneg (by norm_num) large_pos.le
        · rw [div_le_iff₀ (by exact_mod_cast Nat.pos_of_ne_zero h0), mul_comm]
          exact (h.bound _ (hin idx hidx' k hk)).2)
      (by rw [nat_sum]; exact Nat.pos_of_ne_zero h0) (by rw [nat_sum]; exact hN idx hidx')
    rw [range_sum, range_sum, nat_sum] at key
    obtain ⟨y, e, he⟩ := key
    refine ⟨y, e, ?_⟩
    rw [Finset.sum_congr rfl (fun k hk => (hUn _ (hin idx hidx' k (Finset.mem_range.1 hk))).1),
      Finset.sum_congr rfl (fun k hk => (hUn _ (hin idx hidx' k (Finset.mem_range.1 hk))).2)] at he
    linarith
  · intro idx hidx
    have hidx' : InB (fun j => data.shape (a.succAbove j)) idx := hidx
    constructor
    · refine (Finset.abs_sum_le_sum_abs _ _).trans (Finset.sum_le_sum fun k hk => ?_)
      exact (h.bound _ (hin idx hidx' k (Finset.mem_range.1 hk))).1
    · rw [Nat.cast_sum, Finset.sum_mul]
      exact Finset.sum_le_sum fun k hk => (h.bound _ (hin idx hidx' k (Finset.mem_range.1 hk))).2

/-- The cells of a layer, by the two other axes. -/
theorem sum_layer (s : Fin 3 → ℕ) (a : Fin 3) (b : Fin 2) (e : Fin 3) (he : e = a.succAbove (b.succAbove 0)) (i : ℕ) (hi : i < s e) (f : CellId → K) :
    ∑ c ∈ layerCells s e i, f c = ∑ k ∈ Finset.range (s (a.succAbove b)), ∑ m ∈ Finset.range (s a), f (a.insertNth m (b.insertNth k (fun _ => i) : Fin 2 → ℕ)) := by
  have hib' : InB (fun j => (fun j => s (a.succAbove j)) (b.succAbove j)) (fun _ : Fin 1 => i) := by
    intro j
    have : j = 0 := Subsingleton.elim _ _
    rw [this]; dsimp only; rw [← he]; exact hi
  have step1 := sum_cells_fibre s a f (fun t => t (b.succAbove 0) = i)
  have e1 : (cellsOf s).filter (fun c => (fun t : Fin 2 → ℕ => t (b.succAbove 0) = i) (a.removeNth c)) = layerCells s e i := by
    rw [he]; rfl
  rw [e1] at step1
  rw [step1]
  have step2 := sum_cells_fibre (fun j => s (a.succAbove j)) b (fun t => ∑ m ∈ Finset.range (s a), f (a.insertNth m t)) (fun u => u 0 = i)
  have e2 : (cellsOf fun j => s (a.succAbove j)).filter (fun c => (fun u : Fin 1 → ℕ => u 0 = i) (b.removeNth c)) =
      (cellsOf fun j => s (a.succAbove j)).filter (fun t => t (b.succAbove 0) = i) := rfl
  rw [e2] at step2
  rw [step2]
  have e3 : (cellsOf fun j => (fun j => s (a.succAbove j)) (b.succAbove j)).filter (fun u : Fin 1 → ℕ => u 0 = i) = {fun _ => i} := by
    ext u
    simp only [Finset.mem_filter, mem_cellsOf, Finset.mem_singleton]
    constructor
    · rintro ⟨_, h⟩; funext j
      have : j = 0 := Subsingleton.elim _ _
      rw [this]; exact h
    · rintro rfl; exact ⟨hib', rfl⟩
  rw [e3, Finset.sum_singleton]

/-- `x` is the mean of `u` over `T` up to a relative error of `e / 2^52` of the mean absolute value and an absolute error of `e0 / 2^535`; NaN if there is nothing. -/
def CloseMean {α : Type} (x : F K) (T : List α) (u : α → K) (e e0 : K) : Prop :=
  (T = [] → x = F.nan) ∧ (T ≠ [] → ∃ y, x = fin y ∧ |y - avg T u| ≤ e / 2 ^ 52 * avg T (fun t => |u t|) + e0 / 2 ^ 535)

/-- A grid whose cells hold the number of their samples as weight and nearly the mean of their values as data. -/
def HoldsNear {α : Type} (p : Profile) (g : Grid K) (S : List α) (pos : α → Pos K) (u : α → K) : Prop :=
  ∀ c, InB g.geom.cells c → let T := S.filter fun x => inCell p g.geom (pos x) c
    g.st.weight.get c = fin (T.length : K) ∧ CloseMean (g.st.data.get c) T u (T.length + 5) 4

/-- What `collapse` and `collapse_two` of such a grid give. -/
structure ColumnsNear {α : Type} (p : Profile) (g : Grid K) (S : List α) (pos : α → Pos K) (u : α → K) : Prop where
  column : ∀ a : Fin 3, ∃ r, g.collapse a = .ok r ∧ r.shape = (fun j => g.geom.cells (a.succAbove j)) ∧ ∀ idx, InB r.shape idx →
    let T := S.filter fun x => inCells p g.geom (pos x) (lineCells g.geom.cells a idx)
    CloseMean (r.get idx) T u (S.length + 2 * g.geom.cells a + 16) 32
  layer : ∀ a b e : Fin 3, a ≠ b → e ≠ a → e ≠ b → ∃ r, g.collapseTwo a b = .ok r ∧ r.shape = (fun _ => g.geom.cells e) ∧ ∀ i, i < g.geom.cells e →
    let T := S.filter fun x => inCells p g.geom (pos x) (layerCells g.geom.cells e i)
    CloseMean (r.get fun _ => i) T u (S.length + 2 * g.geom.cells a + 2 * g.geom.cells b + 16) 128

theorem speck_small : 128 * speck K ≤ 1 := by
  unfold speck
  rw [mul_one_div, div_le_one (by positivity)]
  calc (128 : K) = 2 ^ 7 := by norm_num
    _ ≤ 2 ^ 535 := pow_le_pow_right₀ (by norm_num) (by norm_num)

theorem closeMean_of {α : Type} (x : F K) (T : List α) (u : α → K) (G κ e e0 : K)
    (h1 : T.length = 0 → x = F.nan)
    (h2 : T.length ≠ 0 → ∃ y, x = fin y ∧ |y - (T.map u).sum / T.length| ≤ G * ((T.map fun t => |u t|).sum / T.length) + κ)
    (hG : G ≤ e / 2 ^ 52) (hκ : κ ≤ e0 * speck K) : CloseMean x T u e e0 := by
  refine ⟨fun h => h1 (by rw [h]; rfl), fun h => ?_⟩
  obtain ⟨y, e1, e2⟩ := h2 (fun h' => h (List.length_eq_zero_iff.1 h'))
  refine ⟨y, e1, ?_⟩
  unfold avg
  have h0 : 0 ≤ (T.map fun t => |u t|).sum / (T.length : K) := div_nonneg (List.sum_nonneg (by simp)) (Nat.cast_nonneg _)
  have h3 := mul_le_mul_of_nonneg_right hG h0
  have e3 : e0 / 2 ^ 535 = e0 * speck K := by unfold speck; ring
  rw [e3]
  linarith

theorem columnsNear [LawfulArith K] [RoundedArith K] {α : Type} (p : Profile) (g : Grid K) (hg : g.Shaped) (S : List α) (pos : α → Pos K) (u : α → K)
    (h : HoldsNear p g S pos u) (hu : ∀ x ∈ S, |u x| ≤ 2 * large K)
    (hsize : S.length + 2 * (g.geom.cells 0 + g.geom.cells 1 + g.geom.cells 2) + 16 ≤ 2 ^ 52) : ColumnsNear p g S pos u := by
  classical
  have hs : g.st.weight.shape = g.st.data.shape := by rw [hg.1, hg.2]
  set s := g.geom.cells with hsd
  have hax : ∀ a : Fin 3, s a ≤ s 0 + s 1 + s 2 := by
    intro a
    fin_cases a
    · change s 0 ≤ _; omega
    · change s 1 ≤ _; omega
    · change s 2 ≤ _; omega
  have hpair : ∀ a b : Fin 3, a ≠ b → s a + s b ≤ s 0 + s 1 + s 2 := by
    intro a b hab
    fin_cases a <;> fin_cases b <;> simp at hab
    all_goals dsimp only [Fin.zero_eta, Fin.mk_one, Fin.reduceFinMk]
    all_goals omega
  let T : CellId → List α := fun c => S.filter fun x => inCell p g.geom (pos x) c
  let cnt : CellId → ℕ := fun c => (T c).length
  let U : CellId → K := fun c => ((T c).map u).sum
  let A : CellId → K := fun c => ((T c).map fun x => |u x|).sum
  set G : K := (S.length + 5) / 2 ^ 52 with hG
  have hSK : (S.length : K) + 2 * (s 0 + s 1 + s 2) + 16 ≤ 2 ^ 52 := by exact_mod_cast hsize
  have hc0 : ∀ a, (0 : K) ≤ s a := fun a => Nat.cast_nonneg _
  have hG0 : 0 ≤ G := by positivity
  have hG1 : G ≤ 1 := by rw [hG, div_le_one (by norm_num)]; linarith [hc0 0, hc0 1, hc0 2]
  have hsp := speck_pos (K := K)
  have hsp1 := speck_small (K := K)
  -- the grid itself
  have start : NearMeans g.st.data g.st.weight cnt U A G (4 * speck K) := by
    refine ⟨?_, ?_, ?_, ?_⟩
    · intro c hc
      rw [hg.1] at hc
      exact (h c hc).1
    · intro c hc h0
      rw [hg.1] at hc
      exact (h c hc).2.1 (List.length_eq_zero_iff.1 h0)
    · intro c hc h0
      rw [hg.1] at hc
      obtain ⟨y, e1, e2⟩ := (h c hc).2.2 (fun h' => h0 (List.length_eq_zero_iff.2 h'))
      refine ⟨y, e1, e2.trans ?_⟩
      have e3 : (4 : K) / 2 ^ 535 = 4 * speck K := by unfold speck; ring
      rw [e3]
      refine add_le_add (mul_le_mul_of_nonneg_right ?_ ?_) le_rfl
      · rw [hG]
        refine div_le_div_of_nonneg_right ?_ (by norm_num)
        have h1 : (T c).length ≤ S.length := List.length_filter_le _ _
        have h2 : ((T c).length : K) ≤ S.length := by exact_mod_cast h1
        exact add_le_add h2 le_rfl
      · refine div_nonneg (List.sum_nonneg fun x hx => ?_) (Nat.cast_nonneg _)
        obtain ⟨_, _, rfl⟩ := List.mem_map.1 hx
        exact abs_nonneg _
    · intro c _
      refine ⟨?_, sum_le_const (T c) u _ fun x hx => hu x (List.mem_filter.1 hx).1⟩
      have h1 := abs_sum_le ((T c).map u)
      rw [List.map_map] at h1
      exact h1
  -- sums over cells are sums over samples
  have sumU : ∀ C : Finset CellId, ∑ c ∈ C, U c = ((S.filter fun x => inCells p g.geom (pos x) C).map u).sum := fun C => sum_cells p g.geom S pos u C
  have sumA : ∀ C : Finset CellId, ∑ c ∈ C, A c = ((S.filter fun x => inCells p g.geom (pos x) C).map fun x => |u x|).sum :=
    fun C => sum_cells p g.geom S pos (fun x => |u x|) C
  have sumN : ∀ C : Finset CellId, ∑ c ∈ C, cnt c = (S.filter fun x => inCells p g.geom (pos x) C).length := by
    intro C
    have h1 := sum_cells (K := K) p g.geom S pos (fun _ => (1 : K)) C
    simp only [List.map_const', List.sum_replicate, nsmul_eq_mul, mul_one] at h1
    rw [← Nat.cast_sum] at h1
    exact_mod_cast h1
  have sumN_le : ∀ C : Finset CellId, ∑ c ∈ C, cnt c ≤ S.length := fun C => by rw [sumN]; exact List.length_filter_le _ _
  -- first collapse
  have first : ∀ a : Fin 3, ∃ r w, Store.collapse g.geom.isCylindrical g.st.data g.st.weight a = .ok r ∧ Store.collapseWeight g.st.weight a = .ok w ∧
      r.shape = (fun j => s (a.succAbove j)) ∧ w.shape = r.shape ∧
      NearMeans r w (fun idx => ∑ k ∈ Finset.range (s a), cnt (a.insertNth k idx)) (fun idx => ∑ k ∈ Finset.range (s a), U (a.insertNth k idx))
        (fun idx => ∑ k ∈ Finset.range (s a), A (a.insertNth k idx)) (G + (2 * s a + 4) / 2 ^ 52) (4 * (4 * speck K) + speck K) := by
    intro a
    have := collapse_near g.geom.isCylindrical g.st.data g.st.weight hs cnt U A G (4 * speck K) start a
      (by rw [hg.1]; have := hax a; change s a < _; omega) hG0 hG1 (by positivity) (by linarith)
      (by
        intro idx hidx
        rw [hg.1] at hidx ⊢
        have h1 := sum_line (K := K) s a idx hidx (fun c => (cnt c : K))
        have h2 : ∑ k ∈ Finset.range (s a), cnt (a.insertNth k idx) = ∑ c ∈ lineCells s a idx, cnt c := by
          have h3 : ((∑ c ∈ lineCells s a idx, cnt c : ℕ) : K) = ((∑ k ∈ Finset.range (s a), cnt (a.insertNth k idx) : ℕ) : K) := by
            push_cast
            exact h1
          exact_mod_cast h3.symm
        change ∑ k ∈ Finset.range (s a), _ < _
        rw [h2]
        have := sumN_le (lineCells s a idx)
        omega)
    rw [hg.1] at this
    exact this
  have castSum : ∀ (a b : ℕ), (a : K) = (b : K) → a = b := fun a b h => by exact_mod_cast h
  constructor
  · intro a
    obtain ⟨r, w, e1, _, e2, _, e3⟩ := first a
    refine ⟨r, e1, e2, fun idx hidx => ?_⟩
    have hidx' : InB (fun j => s (a.succAbove j)) idx := by rw [e2] at hidx; exact hidx
    have hN : ∑ k ∈ Finset.range (s a), cnt (a.insertNth k idx) = (S.filter fun x => inCells p g.geom (pos x) (lineCells s a idx)).length := by
      rw [← sumN]
      refine castSum _ _ ?_
      push_cast
      exact (sum_line (K := K) s a idx hidx' (fun c => (cnt c : K))).symm
    refine closeMean_of _ _ u (G + (2 * s a + 4) / 2 ^ 52) (4 * (4 * speck K) + speck K) _ _ (fun h0 => ?_) (fun h0 => ?_) ?_ (by linarith)
    · exact e3.empty idx hidx (hN.trans h0)
    · obtain ⟨y, k1, k2⟩ := e3.near idx hidx (fun h => h0 (hN ▸ h))
      refine ⟨y, k1, ?_⟩
      rw [hN, ← sum_line (K := K) s a idx hidx' U, ← sum_line (K := K) s a idx hidx' A, sumU, sumA] at k2
      exact k2
    · rw [hG, ← add_div]
      exact div_le_div_of_nonneg_right (by linarith [hc0 a]) (by norm_num)
  · intro a b e hab hea heb
    have main : ∀ (x : Fin 3) (y : Fin 2), x.succAbove (y.succAbove 0) = e → (s x + s (x.succAbove y) = s a + s b) →
        ∃ r, (do let first ← Store.collapse g.geom.isCylindrical g.st.data g.st.weight x.val
                 let firstW ← Store.collapseWeight g.st.weight x.val
                 Store.collapse false first firstW y.val : Run (Arr 1 (F K))) = .ok r ∧
          r.shape = (fun _ => s e) ∧ ∀ i, i < s e →
            CloseMean (r.get fun _ => i) (S.filter fun x => inCells p g.geom (pos x) (layerCells s e i)) u (S.length + 2 * s a + 2 * s b + 16) 128 := by
      intro x y he hsum
      obtain ⟨r, w, e1, ew, e2, e2w, e3⟩ := first x
      have hle := hpair a b hab
      have hsK : (s x : K) + s (x.succAbove y) = s a + s b := by exact_mod_cast hsum
      have hleK : (s a : K) + s b ≤ s 0 + s 1 + s 2 := by exact_mod_cast hle
      have lay : ∀ i, i < s e → ∀ f : CellId → ℕ, ∑ c ∈ layerCells s e i, f c =
          ∑ k ∈ Finset.range (s (x.succAbove y)), ∑ m ∈ Finset.range (s x), f (x.insertNth m (y.insertNth k (fun _ => i) : Fin 2 → ℕ)) := by
        intro i hi f
        refine castSum _ _ ?_
        push_cast
        exact sum_layer (K := K) s x y e he.symm i hi (fun c => (f c : K))
      have hi_of : ∀ idx : Fin 1 → ℕ, InB (fun j => (fun j => s (x.succAbove j)) (y.succAbove j)) idx → idx = (fun _ => idx 0) ∧ idx 0 < s e := by
        intro idx hidx
        refine ⟨funext fun j => by rw [Subsingleton.elim j 0], ?_⟩
        rw [← he]
        exact hidx 0
      obtain ⟨r2, w2, f1, _, f2, _, f3⟩ := collapse_near false r w e2w _ _ _ (G + (2 * s x + 4) / 2 ^ 52) (4 * (4 * speck K) + speck K) e3 y
        (by rw [e2]; have := hax (x.succAbove y); change s (x.succAbove y) < _; omega)
        (by positivity)
        (by
          rw [hG, ← add_div, div_le_one (by norm_num)]
          linarith [hc0 (x.succAbove y)])
        (by positivity) (by linarith)
        (by
          intro idx hidx
          rw [e2] at hidx ⊢
          obtain ⟨q1, q2⟩ := hi_of idx hidx
          dsimp only
          rw [q1, ← lay (idx 0) q2 cnt]
          have := sumN_le (layerCells s e (idx 0))
          omega)
      have hrun : (do let first ← Store.collapse g.geom.isCylindrical g.st.data g.st.weight x.val
                      let firstW ← Store.collapseWeight g.st.weight x.val
                      Store.collapse false first firstW y.val : Run (Arr 1 (F K))) = .ok r2 := by
        rw [e1, run_bind_ok, ew, run_bind_ok]
        exact f1
      have hr2 : r2.shape = fun _ => s e := by
        rw [f2]
        funext j
        have : j = 0 := Subsingleton.elim _ _
        rw [this, e2]
        dsimp only
        rw [he]
      refine ⟨r2, hrun, hr2, fun i hi => ?_⟩
      have hib : InB r2.shape (fun _ : Fin 1 => i) := by rw [hr2]; exact fun _ => hi
      have hsh : r.shape y = s (x.succAbove y) := by rw [e2]
      rw [hsh] at f3
      have hN := lay i hi cnt
      rw [sumN] at hN
      refine closeMean_of _ _ u (G + (2 * s x + 4) / 2 ^ 52 + (2 * s (x.succAbove y) + 4) / 2 ^ 52) (4 * (4 * (4 * speck K) + speck K) + speck K) _ _
        (fun h0 => ?_) (fun h0 => ?_) ?_ (by linarith)
      · exact f3.empty _ hib (hN.symm.trans h0)
      · obtain ⟨z, k1, k2⟩ := f3.near _ hib (fun h => h0 (hN.trans h))
        refine ⟨z, k1, ?_⟩
        rw [← hN, ← sum_layer (K := K) s x y e he.symm i hi U, ← sum_layer (K := K) s x y e he.symm i hi A, sumU, sumA] at k2
        exact k2
      · rw [hG, ← add_div, ← add_div]
        exact div_le_div_of_nonneg_right (by linarith) (by norm_num)
    unfold Grid.collapseTwo Store.collapseTwo
    fin_cases a <;> fin_cases b <;> fin_cases e <;> simp at hab hea heb <;>
      simp only [Store.orderAxes] <;> norm_num
    · exact main 0 0 (by decide) rfl
    · exact main 0 1 (by decide) rfl
    · exact main 0 0 (by decide) (Nat.add_comm _ _)
    · exact main 1 1 (by decide) rfl
    · exact main 0 1 (by decide) (Nat.add_comm _ _)
    · exact main 1 1 (by decide) (Nat.add_comm _ _)

/-- **C119, vector fields.** In rounded arithmetic: each component of `vectorfield` on a fresh Cartesian grid, collapsed along an axis or two, holds for each column (or
layer) the mean of this velocity component over all samples in the column up to a relative error of `(n + 2·(cells) + 16)·2^-52` of the mean of the absolute values, `n` the
number of all samples, and an absolute one far below every double of normal size. Nothing overflows. -/
theorem C119_vectorfield [LawfulArith K] [RoundedArith K] (p : Profile) (d : Dm (Timestep K)) (hd : d.Inv) (grid : Grid K)
    (hg : grid.Fillable p) (hfresh : ∀ c, grid.st.weight.get c = 0 ∧ grid.st.data.get c = 0) (hcart : grid.geom.isCylindrical = false)
    (sel : Selector K) (hs : sel.Usable) (hw : ∀ t, t < d.n → (d.file t).Wf)
    (hsize : (d.samples sel).length + 2 * (grid.geom.cells 0 + grid.geom.cells 1 + grid.geom.cells 2) + 16 ≤ 2 ^ 52) (v : ℕ × ℕ → Fin 3 → K)
    (hv : ∀ x ∈ d.samples sel, StoredVel (velOf d.file x) (v x)) :
    ∃ d' g', vectorfield p d grid sel = .ok (d', g') ∧ ∀ k, (g'.comp k).geom = grid.geom ∧
      ColumnsNear p (g'.comp k) (d.samples sel) (posOf d.file) fun x => v x k := by
  obtain ⟨d1, g1, e1, _, _, _, h1⟩ := C36_vectorfield p d hd grid hg hfresh sel hs hw (by omega)
  obtain ⟨d2, g2, e2, _, _, _, h2⟩ := vectorfield_run p d hd grid hg sel hs hw
  obtain ⟨d3, g3, e3, h3⟩ := C105_vectorfield p d hd grid hg hfresh hcart sel hs hw (by omega) v hv
  rw [e1] at e2 e3
  injection e2 with e2
  injection e3 with e3
  injection e2 with ea eb
  injection e3 with ec ed
  subst ea eb ec ed
  refine ⟨d1, g1, e1, fun k => ⟨(h1 k).1, columnsNear p _ (h2 k).2.1 _ _ _ ?_ (fun x hx => ?_) ?_⟩⟩
  · intro c hc
    rw [(h1 k).1] at hc ⊢
    exact ⟨((h1 k).2 c hc).1, h3 k c hc⟩
  · have := (hv x hx k).2.2
    have hL := large_pos (K := K)
    change _ ≤ large K at this
    linarith
  · rw [(h1 k).1]
    exact hsize

/-- **C119, velocity fields.** The same for `velocityfield` in any mode: the samples are those whose computed value lies within the limits, and the computed value is the
true one up to one part in `2^51`. -/
theorem C119_velocityfield [LawfulArith K] [RoundedArith K] (p : Profile) (d : Dm (Timestep K)) (hd : d.Inv) (grid : Grid K)
    (hg : grid.Fillable p) (hfresh : ∀ c, grid.st.weight.get c = 0)
    (sel : Selector K) (hs : sel.Usable) (hw : ∀ t, t < d.n → (d.file t).Wf)
    (hsize : (d.samples sel).length + 2 * (grid.geom.cells 0 + grid.geom.cells 1 + grid.geom.cells 2) + 16 ≤ 2 ^ 52) (v : ℕ × ℕ → Fin 3 → K)
    (hv : ∀ x ∈ d.samples sel, StoredVel (velOf d.file x) (v x))
    (mode : String) (hm : mode ∈ ["x", "r", "y", "theta", "z", "absolute", "xy", "xz", "yz"]) (lo hi : K)
    (s : ℕ × ℕ → K) (hsv : ∀ x ∈ d.samples sel, TrueValue mode (v x) (s x)) :
    ∃ d' g', velocityfield p d grid sel mode (fin lo) (fin hi) = .ok (d', g') ∧ g'.geom = grid.geom ∧ ∃ acc : ℕ × ℕ → Bool,
      (∀ x ∈ d.samples sel,
        (acc x = true → lo - (|s x| / 2 ^ 51 + 1 / 2 ^ 535) ≤ s x ∧ s x ≤ hi + (|s x| / 2 ^ 51 + 1 / 2 ^ 535)) ∧
        (lo + (|s x| / 2 ^ 51 + 1 / 2 ^ 535) ≤ s x ∧ s x ≤ hi - (|s x| / 2 ^ 51 + 1 / 2 ^ 535) → acc x = true)) ∧
      ColumnsNear p g' ((d.samples sel).filter acc) (posOf d.file) s := by
  obtain ⟨d1, g1, e1, acc, h1, h2⟩ := C106_velocityfield p d hd grid hg hfresh sel hs hw (by omega) v hv mode hm lo hi s hsv
  obtain ⟨vcal, hvc⟩ : ∃ vcal, velMode (K := K) mode = .ok vcal := by
    simp only [List.mem_cons, List.not_mem_nil, or_false] at hm
    rcases hm with rfl | rfl | rfl | rfl | rfl | rfl | rfl | rfl | rfl <;> exact ⟨_, rfl⟩
  obtain ⟨d2, g2, e2, _, _, _, hgeo, hsh, _⟩ := velocityfield_run p d hd grid hg sel hs hw mode vcal hvc (fin lo) (fin hi) (by simp) (by simp)
  rw [e1] at e2
  injection e2 with e2
  injection e2 with ea eb
  subst ea eb
  refine ⟨d1, g1, e1, hgeo, acc, h1, columnsNear p _ hsh _ _ _ ?_ (fun x hx => ?_) ?_⟩
  · intro c hc
    rw [hgeo] at hc ⊢
    have := h2 c hc
    rw [← List.filter_filter] at this
    exact this
  · obtain ⟨_, _, _, _, _, _, h⟩ := mode_accurate mode _ _ _ (hv x (List.mem_filter.1 hx).1) (hsv x (List.mem_filter.1 hx).1)
    exact h
  · rw [hgeo]
    have := List.length_filter_le acc (d.samples sel)
    omega

/-- Witness for C119, in binary64: one particle of velocity (1, 0, 0), in a grid of one cell. -/
example (p : Profile) (kind : Kind) : ∃ d : Dm (Timestep B64), Dm.new p kind (fun _ => oneStep) 1 Timestep.default = .ok d ∧
    (∃ d' g', vectorfield p d unitGrid Selector.default = .ok (d', g') ∧ ∀ k, ColumnsNear p (g'.comp k) [(0, 0)] (posOf d.file) fun _ => (![1, 0, 0] : Fin 3 → B64) k) ∧
    ∃ (d' : Dm (Timestep B64)) (g' : Grid B64) (acc : ℕ × ℕ → Bool), velocityfield p d unitGrid Selector.default "x" (fin 0) (fin 2) = .ok (d', g') ∧
      ColumnsNear p g' (List.filter acc [(0, 0)]) (posOf d.file) fun _ => 1 := by
  obtain ⟨d, e, hinv, hS, hw, hv, hc⟩ := one_stored p kind
  have hu : ∀ a, (unitGrid (K := B64)).geom.cells a = 1 := fun a => by simp [unitGrid, Grid.newCart, CartGeom.new, Geom.cells]
  have hvel : ∀ x ∈ d.samples Selector.default, StoredVel (velOf d.file x) (![1, 0, 0] : Fin 3 → B64) := by
    rw [hS]; intro x hx; rw [List.mem_singleton.1 hx]; exact hv
  refine ⟨d, e, ?_, ?_⟩
  · obtain ⟨d', g', h1, h2⟩ := C119_vectorfield p d hinv unitGrid (fillable_cart p _ unit_isCart) (fun _ => ⟨rfl, rfl⟩) rfl Selector.default usable_default hw
      (by rw [hS, hu, hu, hu]; norm_num) (fun _ => ![1, 0, 0]) hvel
    rw [hS] at h2
    exact ⟨d', g', h1, fun k => (h2 k).2⟩
  · obtain ⟨d', g', h1, _, acc, _, h2⟩ := C119_velocityfield p d hinv unitGrid (fillable_cart p _ unit_isCart) (fun _ => rfl) Selector.default usable_default hw
      (by rw [hS, hu, hu, hu]; norm_num) (fun _ => ![1, 0, 0]) hvel "x" (by simp) 0 2 (fun _ => 1) (fun x _ => Or.inl ⟨Or.inl rfl, rfl⟩)
    rw [hS] at h2
    exact ⟨d', g', acc, h1, h2⟩

end Up4
