import Verif.Props.Granular
import Verif.Props.UsedGrid

set_option linter.unusedSectionVars false

/-! # C43: concentration field -/

namespace Up4
open F
open Selector (at')

variable {K : Type} [Field K] [LinearOrder K] [IsStrictOrderedRing K] [FloorRing K] [Arith K]

/-- Two folds that do not look at each other can be run side by side. -/
theorem foldlM_pair {α σ τ : Type} (L : List α) (f : σ → α → Run σ) (g : τ → α → Run τ) (body : σ × τ → α → Run (σ × τ))
    (hb : ∀ s t, ∀ x ∈ L, ∀ s' t', f s x = .ok s' → g t x = .ok t' → body (s, t) x = .ok (s', t'))
    (s : σ) (t : τ) (s' : σ) (t' : τ) (h1 : L.foldlM f s = .ok s') (h2 : L.foldlM g t = .ok t') :
    L.foldlM body (s, t) = .ok (s', t') := by
  induction L generalizing s t with
  | nil => cases h1; cases h2; rfl
  | cons x L ih =>
    rw [List.foldlM_cons] at h1 h2 ⊢
    obtain ⟨a, ha, h1⟩ := run_bind_inv h1
    obtain ⟨b, hb', h2⟩ := run_bind_inv h2
    rw [hb s t x (by simp) a b ha hb', run_bind_ok]
    exact ih (fun s t y hy => hb s t y (by simp [hy])) a b h1 h2

/-- Type number of a sample. -/
def typOf (file : ℕ → Timestep K) (x : ℕ × ℕ) : ℕ := (file x.1).typ x.2

theorem at_typ {ts : Timestep K} (hw : ts.Wf) {i : ℕ} (h : i < ts.position.length) :
    at' ts.ptype i = .ok (ts.ptype.getD i F.nan) := at_ok (hw.2.2.2.2.2 ▸ h) _

/-- The particle body of `concentration_field` fills grid A with the samples of type `a` and grid B with those of type `b`. -/
theorem concentration_fill [LawfulArith K] (p : Profile) (grid : Grid K) (hg : grid.Fillable p) (a b : ℕ) (hab : a ≠ b)
    (file : ℕ → Timestep K) (L : List (ℕ × ℕ)) (hL : ∀ x ∈ L, x.2 < (file x.1).position.length ∧ (file x.1).Wf) :
    ∃ ga gb, L.foldlM (fun s x => concentrationBody p grid a b s (file x.1) x.2) (grid.newZeros, grid.newZeros) = .ok (ga, gb) ∧
      ga.Shaped ∧ gb.Shaped ∧ ga.geom = grid.geom ∧ gb.geom = grid.geom ∧
      ∀ c, let nA := (L.filter fun x => inCell p grid.geom (posOf file x) c && decide (typOf file x = a)).length
        let nB := (L.filter fun x => inCell p grid.geom (posOf file x) c && decide (typOf file x = b)).length
        ga.st.data.get c = (List.replicate nA 1).foldl (· + ·) (0 : F K) ∧
        gb.st.data.get c = (List.replicate nB 1).foldl (· + ·) (0 : F K) ∧
        ga.st.weight.get c = (List.replicate nA 1).foldl (· + ·) (grid.st.weight.get c) ∧
        gb.st.weight.get c = (List.replicate nB 1).foldl (· + ·) (grid.st.weight.get c) := by
  have hz : grid.newZeros.Fillable p := ⟨newZeros_shaped hg.1, hg.2⟩
  obtain ⟨ga, a1, a2, a3, a4⟩ := field_fill p grid.newZeros hz L (posOf file) (fun _ => 1) (fun x => decide (typOf file x = a))
  obtain ⟨gb, b1, b2, b3, b4⟩ := field_fill p grid.newZeros hz L (posOf file) (fun _ => 1) (fun x => decide (typOf file x = b))
  refine ⟨ga, gb, foldlM_pair L _ _ _ ?_ _ _ _ _ a1 b1, a3, b3, a2, b2, fun c => ?_⟩
  · rintro s t ⟨τ, i⟩ hx s' t' hs ht
    obtain ⟨hi, hwt⟩ := hL _ hx
    unfold concentrationBody
    rw [at_pos hi, run_bind_ok]
    change (if grid.geom.isInside ((file τ).pos i) && decide ((file τ).typ i = a) then s.addValue p ((file τ).pos i) 1 else pure s) = _ at hs
    change (if grid.geom.isInside ((file τ).pos i) && decide ((file τ).typ i = b) then t.addValue p ((file τ).pos i) 1 else pure t) = _ at ht
    by_cases hin : grid.geom.isInside ((file τ).pos i) = true
    · have hin' : ¬ grid.isInside ((file τ).pos i) = false := by unfold Grid.isInside; rw [hin]; simp
      rw [if_neg (by rw [isInside_not_nan _ _ hin]; simp), if_neg hin', at_typ hwt hi, run_bind_ok]
      rw [hin, Bool.true_and] at hs ht
      change (if (file τ).typ i = a then _ else _) = _
      by_cases h1 : (file τ).typ i = a
      · have h2 : ¬ (file τ).typ i = b := fun h => hab (h1.symm.trans h)
        rw [if_pos (by simpa using h1)] at hs
        rw [if_neg (by simpa using h2)] at ht
        cases ht
        rw [if_pos h1, hs]; rfl
      · rw [if_neg (by simpa using h1)] at hs
        cases hs
        rw [if_neg h1]
        change (if (file τ).typ i = b then _ else _) = _
        by_cases h2 : (file τ).typ i = b
        · rw [if_pos (by simpa using h2)] at ht
          rw [if_pos h2, ht]; rfl
        · rw [if_neg (by simpa using h2)] at ht
          cases ht
          rw [if_neg h2]; rfl
    · rw [if_neg (by simp [hin])] at hs ht
      cases hs; cases ht
      by_cases hp : posNaN ((file τ).pos i) = true
      · rw [if_pos hp]; rfl
      · rw [if_neg hp, if_pos (by unfold Grid.isInside; simpa using hin)]; rfl
  · intro nA nB
    obtain ⟨u1, u2⟩ := a4 c
    obtain ⟨w1, w2⟩ := b4 c
    rw [List.map_const'] at u1 w1
    exact ⟨u1, w1, u2, w2⟩

/-- **C43.** `concentration_field` for two different types, any lawful arithmetic, both profiles: no panic; with `nA`, `nB` the
numbers of samples of either type in the cell (selected samples of all timesteps but the last), the cell holds the
quotient `nA / (nA + nB)`, which lies in `[0, 1]`; it is NaN exactly when the cell saw neither type. On a grid without
weights the weight of the cell is `nA + nB`. -/
theorem C43_concentration [LawfulArith K] (p : Profile) (d : Dm (Timestep K)) (hd : d.Inv) (grid : Grid K)
    (hg : grid.Fillable p) (sel : Selector K) (hs : sel.Usable) (hw : ∀ t, t < d.n → (d.file t).Wf)
    (a b : ℕ) (hab : a ≠ b)
    (hlen : (samples sel d.file (List.range (d.n - 1))).length ≤ 2 ^ 52) :
    ∃ d' g', concentrationField p d grid sel a b = .ok (d', g') ∧ d'.Inv ∧ d'.file = d.file ∧ d'.n = d.n ∧
      g'.geom = grid.geom ∧ g'.Shaped ∧ ∀ c, InB grid.geom.cells c →
        let L := samples sel d.file (List.range (d.n - 1))
        let nA := L.countP fun x => inCell p grid.geom (posOf d.file x) c && decide (typOf d.file x = a)
        let nB := L.countP fun x => inCell p grid.geom (posOf d.file x) c && decide (typOf d.file x = b)
        (nA + nB = 0 → g'.st.data.get c = F.nan) ∧
        (nA + nB ≠ 0 → g'.st.data.get c = Arith.rnd ((nA : K) / ((nA + nB : ℕ) : K)) ∧
          fin 0 ≤ g'.st.data.get c ∧ g'.st.data.get c ≤ fin 1) ∧
        ((∀ c, grid.st.weight.get c = 0) → g'.st.weight.get c = fin ((nA + nB : ℕ) : K)) := by
  obtain ⟨m, hm, _, e⟩ := loop_eq (K := K) p sel hs d hd hw (List.range (d.n - 1))
    (fun t ht => by have := List.mem_range.1 ht; omega) (concentrationBody p grid a b) (grid.newZeros, grid.newZeros)
  have hn : 1 ≤ d.n := by have := hd.1.1; have := hd.1.2.1; omega
  obtain ⟨ga, gb, f1, f2, f3, f4, f5, f6⟩ := concentration_fill p grid hg a b hab d.file
    (samples sel d.file (List.range (d.n - 1))) (by
      rintro ⟨t, i⟩ hx
      obtain ⟨ht, _, hi, _⟩ := (mem_samples _ _ _ _ _).1 hx
      exact ⟨hi, hw t (by have := List.mem_range.1 ht; omega)⟩)
  have sa : ga.st.data.shape = grid.geom.cells := f2.1.trans (by rw [f4])
  have sb : gb.st.data.shape = grid.geom.cells := f3.1.trans (by rw [f5])
  have wa : ga.st.weight.shape = grid.geom.cells := f2.2.trans (by rw [f4])
  have wb : gb.st.weight.shape = grid.geom.cells := f3.2.trans (by rw [f5])
  obtain ⟨s, s1, s2, s3⟩ := Arr.zipWith_same (· + ·) ga.st.data gb.st.data (sa.trans sb.symm)
  obtain ⟨q, q1, q2, q3⟩ := Arr.zipWith_same (· / ·) ga.st.data s s2.symm
  obtain ⟨w, w1, w2, w3⟩ := Arr.zipWith_same (· + ·) ga.st.weight gb.st.weight (wa.trans wb.symm)
  refine ⟨{ d with main := m }, { grid.newZeros with st := ⟨q, w⟩ }, ?_, ⟨hm, hd.2⟩, rfl, rfl, rfl, ⟨q2.trans sa, w2.trans wa⟩, ?_⟩
  · unfold concentrationField
    rw [stepsBut_eq p d hd hn, run_bind_ok, e, f1, run_bind_ok, run_bind_ok]
    dsimp only
    rw [s1, run_bind_ok, q1, run_bind_ok, w1, run_bind_ok]
    unfold Grid.setData Store.setData
    rw [if_pos (show grid.newZeros.st.data.shape = q.shape from (q2.trans sa).symm), run_bind_ok, run_pure, run_bind_ok]
    unfold Grid.setWeights Store.setWeights
    rw [if_pos (show grid.newZeros.st.weight.shape = w.shape from hg.1.2.trans (w2.trans wa).symm)]
    rfl
  · intro c hc L nA nB
    obtain ⟨k1, k2, k3, k4⟩ := f6 c
    have eA : (L.filter fun x => inCell p grid.geom (posOf d.file x) c && decide (typOf d.file x = a)).length = nA :=
      List.countP_eq_length_filter.symm
    have eB : (L.filter fun x => inCell p grid.geom (posOf d.file x) c && decide (typOf d.file x = b)).length = nB :=
      List.countP_eq_length_filter.symm
    rw [eA] at k1 k3
    rw [eB] at k2 k4
    have lA : nA ≤ 2 ^ 52 := (List.countP_le_length).trans hlen
    have lB : nB ≤ 2 ^ 52 := (List.countP_le_length).trans hlen
    have ones : ∀ n, n ≤ 2 ^ 52 → (List.replicate n (1 : F K)).foldl (· + ·) (0 : F K) = fin (n : K) := by
      intro n hn
      have := foldl_ones (K := K) 0 n (by omega)
      rw [Nat.cast_zero, Nat.zero_add] at this
      exact this
    rw [ones nA lA] at k1
    rw [ones nB lB] at k2
    have hsum : s.get c = fin ((nA + nB : ℕ) : K) := by
      rw [s3 c (by rw [sa]; exact hc), k1, k2, F.add_fin, ← Nat.cast_add, F.rnd_nat _ (by omega)]
    have hq : q.get c = fin (nA : K) / fin ((nA + nB : ℕ) : K) := by
      rw [q3 c (by rw [sa]; exact hc), k1, hsum]
    refine ⟨fun h0 => ?_, fun h0 => ?_, fun hwz => ?_⟩
    · change q.get c = _
      have hA : nA = 0 := by omega
      rw [hq, h0, hA]; simp [F.div_fin, F.infTimes]
    · have hpos : ((nA + nB : ℕ) : K) ≠ 0 := by exact_mod_cast h0
      have hpos' : (0 : K) < ((nA + nB : ℕ) : K) := by exact_mod_cast Nat.pos_of_ne_zero h0
      have hq' : q.get c = Arith.rnd ((nA : K) / ((nA + nB : ℕ) : K)) := by rw [hq, F.div_fin_ne _ hpos]
      refine ⟨hq', ?_, ?_⟩
      · change fin 0 ≤ q.get c
        rw [hq']
        exact F.fin_le_rnd F.rep_zero (div_nonneg (Nat.cast_nonneg _) hpos'.le)
      · change q.get c ≤ fin 1
        rw [hq']
        refine F.rnd_le_fin F.rep_one ((div_le_one hpos').2 ?_)
        exact_mod_cast Nat.le_add_right _ _
    · change w.get c = _
      rw [w3 c (by rw [wa]; exact hc), k3, k4, hwz c, ones nA lA, ones nB lB, F.add_fin, ← Nat.cast_add, F.rnd_nat _ (by omega)]

/-- **C43, swapping the types.** In exact arithmetic, where both calls yield a number the two concentrations add up to one. -/
theorem C43_swap [LawfulArith K] [ExactArith K] (p : Profile) (d : Dm (Timestep K)) (hd : d.Inv) (grid : Grid K)
    (hg : grid.Fillable p) (sel : Selector K) (hs : sel.Usable) (hw : ∀ t, t < d.n → (d.file t).Wf)
    (a b : ℕ) (hab : a ≠ b)
    (hlen : (samples sel d.file (List.range (d.n - 1))).length ≤ 2 ^ 52) :
    ∃ d1 g1 d2 g2, concentrationField p d grid sel a b = .ok (d1, g1) ∧ concentrationField p d grid sel b a = .ok (d2, g2) ∧
      ∀ c, InB grid.geom.cells c → (g1.st.data.get c = F.nan ∧ g2.st.data.get c = F.nan) ∨
        ∃ x : K, 0 ≤ x ∧ x ≤ 1 ∧ g1.st.data.get c = fin x ∧ g2.st.data.get c = fin (1 - x) := by
  obtain ⟨d1, g1, e1, _, _, _, _, _, h1⟩ := C43_concentration p d hd grid hg sel hs hw a b hab hlen
  obtain ⟨d2, g2, e2, _, _, _, _, _, h2⟩ := C43_concentration p d hd grid hg sel hs hw b a hab.symm hlen
  refine ⟨d1, g1, d2, g2, e1, e2, fun c hc => ?_⟩
  obtain ⟨k1, k2, _⟩ := h1 c hc
  obtain ⟨k3, k4, _⟩ := h2 c hc
  generalize (samples sel d.file (List.range (d.n - 1))).countP (fun x => inCell p grid.geom (posOf d.file x) c && decide (typOf d.file x = a)) = nA at *
  generalize (samples sel d.file (List.range (d.n - 1))).countP (fun x => inCell p grid.geom (posOf d.file x) c && decide (typOf d.file x = b)) = nB at *
  by_cases h0 : nA + nB = 0
  · exact Or.inl ⟨k1 h0, k3 (by omega)⟩
  · right
    have hpos : (0 : K) < ((nA + nB : ℕ) : K) := by exact_mod_cast Nat.pos_of_ne_zero h0
    obtain ⟨v1, _, _⟩ := k2 h0
    obtain ⟨v2, _, _⟩ := k4 (by omega)
    rw [ExactArith.rnd_eq] at v1 v2
    refine ⟨(nA : K) / ((nA + nB : ℕ) : K), div_nonneg (Nat.cast_nonneg _) hpos.le, (div_le_one hpos).2 (by exact_mod_cast Nat.le_add_right _ _), v1, ?_⟩
    rw [v2, Nat.add_comm nB nA]
    congr 1
    field_simp
    push_cast
    ring

/-- Two particles at the origin, of type 0 and type 1. -/
def mixStep : Timestep K :=
  ⟨fin 0, [fun _ => fin 0, fun _ => fin 0], [![fin 1, fin 0, fin 0], ![fin 0, fin 1, fin 0]], [fin 1, fin 1], [fin 1, fin 2],
    [fin 0, fin 0], [fin 0, fin 0], [fin 0, fin 1]⟩

theorem mix_samples [LawfulArith K] : samples Selector.default (fun _ => mixStep (K := K)) (List.range 1) = [(0, 0), (0, 1)] := by
  have : (Selector.default : Selector K).timestepValid (mixStep (K := K)).time = true := one_time
  unfold samples Timestep.picks
  simp only [this, if_true]
  simp [mixStep, chosen_default, List.range_succ]

/-- Witness for C43: a dataset of two timesteps with one sample of each type in the only cell; the concentration is 1/2. -/
example [LawfulArith K] [ExactArith K] (p : Profile) (kind : Kind) : ∃ d : Dm (Timestep K),
    Dm.new p kind (fun _ => mixStep) 2 Timestep.default = .ok d ∧ ∃ d' g', concentrationField p d unitGrid Selector.default 0 1 = .ok (d', g') ∧
      g'.st.data.get (fun _ => 0) = fin (1 / 2) := by
  obtain ⟨d, e, hinv, hf, hn, _⟩ := Dm.new_ok p kind (fun _ => mixStep (K := K)) 2 Timestep.default (by norm_num) (by norm_num)
  have hw : ∀ t, t < d.n → (d.file t).Wf := fun t _ => by rw [hf]; exact ⟨rfl, rfl, rfl, rfl, rfl, rfl⟩
  have hS : samples Selector.default d.file (List.range (d.n - 1)) = [(0, 0), (0, 1)] := by rw [hf, hn]; exact mix_samples
  have hcB : InB (unitGrid (K := K)).geom.cells (fun _ => 0) := fun a => by
    simp [unitGrid, Grid.newCart, CartGeom.new, Geom.cells]
  obtain ⟨d', g', e1, _, _, _, _, _, h⟩ := C43_concentration p d hinv unitGrid (fillable_cart p _ unit_isCart) Selector.default
    usable_default hw 0 1 (by norm_num) (by rw [hS]; norm_num)
  obtain ⟨_, k, _⟩ := h _ hcB
  have h0 : inCell p (unitGrid (K := K)).geom (posOf d.file (0, 0)) (fun _ => 0) = true := by
    rw [hf]; exact unit_lookup p
  have h1 : inCell p (unitGrid (K := K)).geom (posOf d.file (0, 1)) (fun _ => 0) = true := by
    rw [hf]; exact unit_lookup p
  have t0 : typOf d.file (0, 0) = 0 := by
    rw [hf]; change (fin (0 : K)).toUsize = 0; simp [F.toUsize]
  have t1 : typOf d.file (0, 1) = 1 := by
    rw [hf]; change (fin (1 : K)).toUsize = 1; simp [F.toUsize, F.usizeMax]
  simp only [hS, List.countP_cons, List.countP_nil, h0, h1, t0, t1] at k
  norm_num at k
  obtain ⟨k1, _⟩ := k
  refine ⟨d, e, d', g', e1, ?_⟩
  rw [k1, ExactArith.rnd_eq]

end Up4
