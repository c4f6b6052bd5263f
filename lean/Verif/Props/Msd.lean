import Verif.Props.Dispersion

set_option linter.unusedSectionVars false

/-! # C44: mean squared displacement -/

namespace Up4
open F
open Selector (at')

variable {K : Type} [Field K] [LinearOrder K] [IsStrictOrderedRing K] [FloorRing K] [Arith K]

/-- The distance `msd_field` adds for a lead. -/
def leadDist (file : ℕ → Timestep K) (x : ℕ × ℕ × ℕ) : F K :=
  (F.sq (startOf file x 0 - endOf file x 0) + F.sq (startOf file x 1 - endOf file x 1) + F.sq (startOf file x 2 - endOf file x 2)).sqrt

/-- `msd_field` in any arithmetic. -/
theorem msd_run [LawfulArith K] (p : Profile) (d : Dm (Timestep K)) (hd : d.CanLook) (st : Stats K) (τ : ℕ → K)
    (hc : Clocked st d.file d.n τ) (grid : Grid K) (hg : grid.Fillable p) (sel : Selector K) (hs : sel.Usable)
    (hw : ∀ t, t < d.n → (d.file t).Wf) (np : ℕ) (hnp : ∀ t, t < d.n → (d.file t).position.length = np) (δ : K) :
    ∃ d' g', msdField p d st grid sel (fin δ) = .ok (d', g') ∧ d'.CanLook ∧ d'.file = d.file ∧ d'.n = d.n ∧
      g'.geom = grid.geom ∧ g'.Shaped ∧ ∀ c, InB grid.geom.cells c →
        let S := (d.leads p sel st (fin δ) (List.range (d.n - 1))).filter fun x => inCell p grid.geom (startOf d.file x) c
        let X := (S.map (leadDist d.file)).foldl (· + ·) 0
        let N := (List.replicate S.length 1).foldl (· + ·) (grid.st.weight.get c)
        g'.st.weight.get c = N ∧ g'.st.data.get c = if N > 0 then (X * X) / N else 0 := by
  have hpos : 1 ≤ d.n := by have := hd.1.1; have := this.1; have := hd.1.1.2.1; omega
  obtain ⟨d1, e1, hd1, hf1, hn1⟩ := Dm.setup_looking p Timestep.default d hd
  have hlt : ∀ t ∈ List.range (d1.n - 1), t < d1.n := fun t ht => by have := List.mem_range.1 ht; omega
  obtain ⟨d2, l2, hd2, hf2, hn2, e2⟩ := futureLoop_eq p st sel hs δ (msdBody p grid) (List.range (d1.n - 1)) d1 τ
    (by rw [hf1, hn1]; exact hc) (by rw [hf1, hn1]; exact hw) 0 hd1 hlt
    (List.pairwise_le_range) (fun _ _ _ _ => Nat.zero_le _) grid.newZeros
  set L := d.leads p sel st (fin δ) (List.range (d.n - 1)) with hL
  have hgz : grid.newZeros.Fillable p := ⟨newZeros_shaped hg.1, hg.2⟩
  obtain ⟨g1, h1, h2, h3, h4⟩ := field_fill p grid.newZeros hgz L (startOf d.file) (leadDist d.file) (fun _ => true)
  have hbody : (Up4.leads sel d1.file (partner p st.times d1.file (fin δ)) (List.range (d1.n - 1))).foldlM
      (fun s x => msdBody p grid (d1.file x.2.2) s (d1.file x.1) x.2.1) grid.newZeros = .ok g1 := by
    rw [hf1, hn1]
    change L.foldlM _ _ = _
    rw [← h1]
    apply foldlM_congr
    rintro s ⟨t, i, t'⟩ hx
    obtain ⟨ht, ht', hi⟩ := lead_in_range p sel st d hd.1 τ hc δ _ (fun t ht => by have := List.mem_range.1 ht; omega) hx
    have hi' : i < (d.file t').position.length := by rw [hnp t' ht', ← hnp t ht]; exact hi
    unfold msdBody
    rw [at_pos hi, run_bind_ok, at_pos hi', Bool.and_true]
    rfl
  have s1 : g1.st.data.shape = grid.geom.cells := by rw [h3.1, h2]; rfl
  have s2 : g1.st.weight.shape = grid.geom.cells := by rw [h3.2, h2]; rfl
  obtain ⟨q, w1, w2, w3⟩ := Arr.zipWith_same (fun x y : F K => if y > 0 then (x * x) / y else 0) g1.st.data g1.st.weight (s1.trans s2.symm)
  have hq : q.shape = grid.geom.cells := w2.trans s1
  refine ⟨d2, { grid with st := ⟨q, g1.st.weight⟩ }, ?_, hd2.canLook, hf2.trans hf1, hn2.trans hn1, rfl, ⟨hq, s2⟩, ?_⟩
  · unfold msdField
    rw [e1, run_bind_ok, stepsBut_eq p d1 hd1.1 (by omega), run_bind_ok, e2, hbody, run_bind_ok, run_bind_ok]
    dsimp only
    rw [w1, run_bind_ok]
    unfold Grid.setData Store.setData
    rw [if_pos (show grid.st.data.shape = q.shape from hg.1.1.trans hq.symm), run_bind_ok, run_pure, run_bind_ok]
    unfold Grid.setWeights Store.setWeights
    rw [if_pos (show grid.st.weight.shape = g1.st.weight.shape from hg.1.2.trans s2.symm)]
    rfl
  · intro c hcb S X N
    obtain ⟨k1, k2⟩ := h4 c
    simp only [Bool.and_true] at k1 k2
    refine ⟨k2, ?_⟩
    change q.get c = _
    rw [w3 c (by rw [s1]; exact hcb), k2, k1]
    rfl

/-- **C44 (partial).** The full property: a visited cell holds the mean of the squared displacements of the samples starting in it.
Proved, exact arithmetic, grid without contents, timesteps `0 … n-2`: with `D x ≥ 0` the displacement of lead `x` (its square is the
squared distance between the two positions), a cell with samples `S` holds `(Σ D)² / |S|`. This is the squared displacement if the cell has exactly
one sample, and at most `|S|` times the mean squared displacement; a cell without samples holds 0. Missing: cells with
several samples, for which the property is false (`C44_false`). -/
theorem C44_msd_partial [LawfulArith K] [ExactArith K] (p : Profile) (d : Dm (Timestep K)) (hd : d.CanLook) (st : Stats K) (τ : ℕ → K)
    (hc : Clocked st d.file d.n τ) (grid : Grid K) (hg : grid.Fillable p) (hfresh : ∀ c, grid.st.weight.get c = 0)
    (sel : Selector K) (hs : sel.Usable)
    (hw : ∀ t, t < d.n → (d.file t).Wf) (np : ℕ) (hnp : ∀ t, t < d.n → (d.file t).position.length = np) (δ : K)
    (u w : ℕ × ℕ × ℕ → Fin 3 → K)
    (hfin : ∀ x ∈ d.leads p sel st (fin δ) (List.range (d.n - 1)), grid.isInside (startOf d.file x) = true →
      ∀ a, startOf d.file x a = fin (u x a) ∧ endOf d.file x a = fin (w x a)) :
    ∃ (d' : Dm (Timestep K)) (g' : Grid K) (D : ℕ × ℕ × ℕ → K),
      msdField p d st grid sel (fin δ) = .ok (d', g') ∧ d'.CanLook ∧ d'.file = d.file ∧ d'.n = d.n ∧ g'.geom = grid.geom ∧
      (∀ x, 0 ≤ D x ∧ D x ^ 2 = (u x 0 - w x 0) ^ 2 + (u x 1 - w x 1) ^ 2 + (u x 2 - w x 2) ^ 2) ∧
      ∀ c, InB grid.geom.cells c →
        let S := (d.leads p sel st (fin δ) (List.range (d.n - 1))).filter fun x => inCell p grid.geom (startOf d.file x) c
        g'.st.weight.get c = fin (S.length : K) ∧
        (S = [] → g'.st.data.get c = 0) ∧
        (S ≠ [] → g'.st.data.get c = fin ((S.map D).sum ^ 2 / S.length)) ∧
        (∀ x, S = [x] → g'.st.data.get c = fin ((u x 0 - w x 0) ^ 2 + (u x 1 - w x 1) ^ 2 + (u x 2 - w x 2) ^ 2)) ∧
        (S.map D).sum ^ 2 / S.length ≤ S.length * mean (S.map fun x => (u x 0 - w x 0) ^ 2 + (u x 1 - w x 1) ^ 2 + (u x 2 - w x 2) ^ 2) := by
  obtain ⟨d', g', h1, h2, h3, h4, h5, _, h6⟩ := msd_run p d hd st τ hc grid hg sel hs hw np hnp δ
  have hD : ∀ x : ℕ × ℕ × ℕ, ∃ T : K, (fin ((u x 0 - w x 0) * (u x 0 - w x 0) + (u x 1 - w x 1) * (u x 1 - w x 1) + (u x 2 - w x 2) * (u x 2 - w x 2)) : F K).sqrt = fin T ∧
      0 ≤ T ∧ T * T = (u x 0 - w x 0) * (u x 0 - w x 0) + (u x 1 - w x 1) * (u x 1 - w x 1) + (u x 2 - w x 2) * (u x 2 - w x 2) := by
    intro x
    apply sqrt_root
    nlinarith [mul_self_nonneg (u x 0 - w x 0), mul_self_nonneg (u x 1 - w x 1), mul_self_nonneg (u x 2 - w x 2)]
  choose D hD1 hD2 hD3 using hD
  have hsq : ∀ x, D x ^ 2 = (u x 0 - w x 0) ^ 2 + (u x 1 - w x 1) ^ 2 + (u x 2 - w x 2) ^ 2 := fun x => by
    rw [pow_two, hD3 x]; ring
  refine ⟨d', g', D, h1, h2, h3, h4, h5, fun x => ⟨hD2 x, hsq x⟩, fun c hcb => ?_⟩
  obtain ⟨k1, k2⟩ := h6 c hcb
  intro S
  have hS : ∀ x ∈ S, leadDist d.file x = fin (D x) := by
    intro x hx
    obtain ⟨g1, g2⟩ := List.mem_filter.1 hx
    unfold inCell at g2
    rw [Bool.and_eq_true] at g2
    have hf := hfin x g1 g2.1
    unfold leadDist F.sq
    rw [(hf 0).1, (hf 0).2, (hf 1).1, (hf 1).2, (hf 2).1, (hf 2).2, F.esub, F.esub, F.esub, F.emul, F.emul, F.emul, F.eadd, F.eadd, hD1 x]
  have hX : (S.map (leadDist d.file)).foldl (· + ·) 0 = fin (S.map D).sum := by
    rw [map_fin S _ D hS, F.zero_def, foldl_fin, zero_add]
  have hN : (List.replicate S.length (1 : F K)).foldl (· + ·) (fin 0) = fin (S.length : K) := by
    rw [foldl_ones_exact, zero_add]
  rw [hfresh c, F.zero_def] at k1 k2
  change g'.st.weight.get c = (List.replicate S.length (1 : F K)).foldl (· + ·) (fin 0) at k1
  change g'.st.data.get c = (if (List.replicate S.length (1 : F K)).foldl (· + ·) (fin 0) > fin 0 then
    (S.map (leadDist d.file)).foldl (· + ·) (fin 0) * (S.map (leadDist d.file)).foldl (· + ·) (fin 0) /
      (List.replicate S.length (1 : F K)).foldl (· + ·) (fin 0) else fin 0) at k2
  rw [F.zero_def] at hX
  rw [hN] at k1
  rw [hN, hX] at k2
  have hmain : S ≠ [] → g'.st.data.get c = fin ((S.map D).sum ^ 2 / S.length) := by
    intro hne
    have hp : (0 : K) < S.length := by exact_mod_cast List.length_pos_iff.2 hne
    rw [k2, if_pos (by change fin 0 < fin _; rw [F.lt_fin]; exact hp), F.emul, F.ediv _ hp.ne', pow_two]
  refine ⟨k1, fun hnil => ?_, hmain, fun x hx => ?_, ?_⟩
  · rw [k2, if_neg (by change ¬ fin 0 < fin _; rw [F.lt_fin, hnil]; simp)]; rfl
  · rw [hmain (by rw [hx]; simp), hx, ← hsq x]
    congr 1
    simp
  · by_cases hne : S = []
    · simp [hne, mean]
    · have hv := var_identity (S.map D) (by simpa using hne)
      have hnn := meanSqDev_nonneg (S.map D)
      rw [← hv, List.length_map, List.map_map] at hnn
      have hp : (0 : K) < S.length := by exact_mod_cast List.length_pos_iff.2 hne
      have e : (S.map ((fun x => x * x) ∘ D)).sum = (S.map fun x => (u x 0 - w x 0) ^ 2 + (u x 1 - w x 1) ^ 2 + (u x 2 - w x 2) ^ 2).sum := by
        congr 1
        apply List.map_congr_left
        intro x _
        rw [← hsq x, pow_two]; rfl
      unfold mean
      rw [List.length_map, ← e]
      have h7 := mul_le_mul_of_nonneg_left (sub_nonneg.1 hnn) hp.le
      calc (S.map D).sum ^ 2 / S.length = S.length * ((S.map D).sum * (S.map D).sum / S.length / S.length) := by field_simp
        _ ≤ _ := h7

/-- **C44 is false of the code** even in exact arithmetic: the demo dataset's particle moves by `1/2` along every axis in each
second, so every squared displacement over one second is `3/4`, but with three samples in the cell `msd_field` returns `9/4`. -/
theorem C44_false (p : Profile) (kind : Kind) : ∃ (d d' : Dm (Timestep ℝ)) (g' : Grid ℝ),
    Dm.new p kind demoFile 4 Timestep.default = .ok d ∧
    msdField p d demoStats (Grid.newCart (fun _ => 1) (finLimits (fun _ => 0) (fun _ => 4))) Selector.default (fin 1) = .ok (d', g') ∧
    (∀ x ∈ d.leads p Selector.default demoStats (fin 1) (List.range (d.n - 1)), ∀ a,
      startOf d.file x a = fin ((x.1 : ℝ) / 2) ∧ endOf d.file x a = fin ((x.1 : ℝ) / 2 + 1 / 2)) ∧
    g'.st.data.get (fun _ => 0) = fin (9 / 4) ∧ g'.st.weight.get (fun _ => 0) = fin 3 := by
  obtain ⟨d, e, hd, hf, hn⟩ := Dm.canLook_new p kind demoFile 4 Timestep.default (by norm_num) (by norm_num) (Or.inr (by norm_num [BUFFERSIZE]))
  set grid : Grid ℝ := Grid.newCart (fun _ => 1) (finLimits (fun _ => 0) (fun _ => 4)) with hgrid
  have hfill : grid.Fillable p := fillable_cart p _ (isCart_new _ _ (fun _ => by norm_num))
  have hleads : d.leads p Selector.default demoStats (fin 1) (List.range (d.n - 1)) = [(0, 0, 1), (1, 0, 2), (2, 0, 3)] := by
    unfold Dm.leads
    rw [hf, hn]
    exact demo_leads3 p demoStats rfl
  have hends : ∀ x ∈ d.leads p Selector.default demoStats (fin 1) (List.range (d.n - 1)), ∀ a,
      startOf d.file x a = fin ((x.1 : ℝ) / 2) ∧ endOf d.file x a = fin ((x.1 : ℝ) / 2 + 1 / 2) := by
    intro x hx a
    rw [hleads] at hx
    simp only [List.mem_cons, List.not_mem_nil, or_false] at hx
    unfold startOf endOf
    rw [hf]
    rcases hx with rfl | rfl | rfl
    · refine ⟨rfl, ?_⟩
      change fin (((1 : ℕ) : ℝ) / 2) = _
      congr 1; norm_num
    · refine ⟨rfl, ?_⟩
      change fin (((2 : ℕ) : ℝ) / 2) = _
      congr 1; norm_num
    · refine ⟨rfl, ?_⟩
      change fin (((3 : ℕ) : ℝ) / 2) = _
      congr 1; norm_num
  obtain ⟨d', g', D, h1, _, _, _, _, hD, h2⟩ := C44_msd_partial p d hd demoStats (fun i => 0 + (i : ℝ) * 1)
    (by rw [hf, hn]; exact demo_clocked 4 _ rfl) grid hfill (fun _ => rfl) Selector.default usable_default
    (fun t _ => by rw [hf]; exact demoFile_wf t) 1 (fun t _ => by rw [hf]; rfl) 1 (fun x _ => (x.1 : ℝ) / 2) (fun x _ => (x.1 : ℝ) / 2 + 1 / 2)
    (fun x hx _ a => hends x hx a)
  refine ⟨d, d', g', e, h1, hends, ?_⟩
  have hin : ∀ t : ℕ, t ≤ 4 → inCell p grid.geom (fun _ => fin ((t : ℝ) / 2)) (fun _ => 0) = true := by
    intro t ht
    have hins : grid.geom.isInside (fun _ => fin ((t : ℝ) / 2)) = true := by
      have : (t : ℝ) ≤ 4 := by exact_mod_cast ht
      exact (cart_inside _ _ _ (fun _ => (t : ℝ) / 2)).2 fun a => ⟨by positivity, by linarith⟩
    obtain ⟨c, hc, hb⟩ := hfill.2.isSome hins
    have : c = fun _ => 0 := by
      funext a
      have : c a < 1 := hb a
      omega
    unfold inCell
    rw [hins, hc, this]
    simp
  have hS : ((d.leads p Selector.default demoStats (fin 1) (List.range (d.n - 1))).filter fun x =>
      inCell p grid.geom (startOf d.file x) (fun _ => 0)) = [(0, 0, 1), (1, 0, 2), (2, 0, 3)] := by
    rw [hleads, List.filter_eq_self]
    intro x hx
    simp only [List.mem_cons, List.not_mem_nil, or_false] at hx
    rcases hx with rfl | rfl | rfl
    · unfold startOf; rw [hf]; exact hin 0 (by norm_num)
    · unfold startOf; rw [hf]; exact hin 1 (by norm_num)
    · unfold startOf; rw [hf]; exact hin 2 (by norm_num)
  obtain ⟨k1, _, k3, _⟩ := h2 (fun _ => 0) (fun _ => Nat.one_pos)
  rw [hS] at k1 k3
  refine ⟨?_, by rw [k1]; norm_num⟩
  rw [k3 (by simp)]
  congr 1
  have hDD : ∀ x, D x ^ 2 = 3 / 4 := fun x => by rw [(hD x).2]; ring
  have hEq : ∀ x y, D x = D y := fun x y => by
    have := (hDD x).trans (hDD y).symm
    exact (pow_left_inj₀ (hD x).1 (hD y).1 (by norm_num)).1 this
  simp only [List.map_cons, List.map_nil, List.sum_cons, List.sum_nil, List.length_cons, List.length_nil, hEq (1, 0, 2) (0, 0, 1), hEq (2, 0, 3) (0, 0, 1)]
  have := hDD (0, 0, 1)
  push_cast
  linear_combination 3 * this

end Up4
