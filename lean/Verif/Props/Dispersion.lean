import Verif.Proofs.Ahead
import Verif.Props.Granular

set_option linter.unusedSectionVars false

/-! # C38: dispersion -/

namespace Up4
open F
open Selector (at')

variable {K : Type} [Field K] [LinearOrder K] [IsStrictOrderedRing K] [FloorRing K] [Arith K]

/-- Position of the sample of a lead. -/
def startOf (file : ℕ → Timestep K) (x : ℕ × ℕ × ℕ) : Pos K := (file x.1).pos x.2.1
/-- Position of the same particle slot at the later timestep. -/
def endOf (file : ℕ → Timestep K) (x : ℕ × ℕ × ℕ) : Pos K := (file x.2.2).pos x.2.1

theorem addToCell_ok (g : Grid K) (hg : g.Shaped) {c : CellId} (hc : InB g.geom.cells c) (v : F K) :
    g.addToCell c v = .ok { g with st := g.st.bump c v 1 } := by
  unfold Grid.addToCell
  rw [Store.addAt_ok g.st (by rw [hg.1]; exact hc) (by rw [hg.2]; exact hc) v 1]
  rfl

/-- The value `dispersionCells` adds to a cell. -/
def Sums.cellValue (s : Sums K) (c : CellId) : F K :=
  dispersionCell (s.cnt.get c) (fun a => (s.sq a).get c) (fun a => (s.sum a).get c)

theorem dispersionCells_fold (s : Sums K) (cells : CellId) (hs : s.Shaped cells) (L : List CellId) (hL : L.Nodup)
    (hin : ∀ c ∈ L, InB cells c) (g : Grid K) (hg : g.Shaped) (hgc : g.geom.cells = cells) :
    ∃ g', L.foldlM (fun (g : Grid K) c => do
        let n ← s.cnt.read c
        if n > 1 then do
          let q0 ← (s.sq 0).read c
          let q1 ← (s.sq 1).read c
          let q2 ← (s.sq 2).read c
          let s0 ← (s.sum 0).read c
          let s1 ← (s.sum 1).read c
          let s2 ← (s.sum 2).read c
          g.addToCell c (dispersionCell n ![q0, q1, q2] ![s0, s1, s2])
        else pure g) g = .ok g' ∧ g'.geom = g.geom ∧ g'.Shaped ∧
      ∀ c, g'.st.data.get c = (if c ∈ L ∧ s.cnt.get c > 1 then g.st.data.get c + s.cellValue c else g.st.data.get c) ∧
        g'.st.weight.get c = (if c ∈ L ∧ s.cnt.get c > 1 then g.st.weight.get c + 1 else g.st.weight.get c) := by
  induction L generalizing g with
  | nil => exact ⟨g, rfl, rfl, hg, fun c => by simp⟩
  | cons c L ih =>
    obtain ⟨h1, h2, h3⟩ := hs
    have hc := hin c (by simp)
    rw [List.nodup_cons] at hL
    have r1 : ∀ a, (s.sq a).read c = .ok ((s.sq a).get c) := fun a => Arr.read_ok _ (by rw [h1 a]; exact hc)
    have r2 : ∀ a, (s.sum a).read c = .ok ((s.sum a).get c) := fun a => Arr.read_ok _ (by rw [h2 a]; exact hc)
    have r3 : s.cnt.read c = .ok (s.cnt.get c) := Arr.read_ok _ (by rw [h3]; exact hc)
    rw [List.foldlM_cons, r3, run_bind_ok]
    by_cases hn : s.cnt.get c > 1
    · rw [if_pos hn, r1 0, run_bind_ok, r1 1, run_bind_ok, r1 2, run_bind_ok, r2 0, run_bind_ok, r2 1, run_bind_ok, r2 2, run_bind_ok]
      have hv : dispersionCell (s.cnt.get c) ![(s.sq 0).get c, (s.sq 1).get c, (s.sq 2).get c]
          ![(s.sum 0).get c, (s.sum 1).get c, (s.sum 2).get c] = s.cellValue c := rfl
      rw [hv, addToCell_ok g hg (by rw [hgc]; exact hc), run_bind_ok]
      obtain ⟨g', e1, e2, e3, e4⟩ := ih hL.2 (fun c hc => hin c (by simp [hc])) { g with st := g.st.bump c (s.cellValue c) 1 } hg hgc
      refine ⟨g', e1, e2, e3, fun c' => ?_⟩
      obtain ⟨k1, k2⟩ := e4 c'
      by_cases hcc : c' = c
      · subst hcc
        rw [if_neg (fun h => hL.1 h.1)] at k1 k2
        rw [if_pos ⟨by simp, hn⟩, if_pos ⟨by simp, hn⟩, k1, k2]
        simp [Store.bump]
      · have hm : (c' ∈ c :: L ∧ s.cnt.get c' > 1) ↔ (c' ∈ L ∧ s.cnt.get c' > 1) := by
          rw [List.mem_cons]; simp [hcc]
        rw [k1, k2]
        simp only [hm]
        simp [Store.bump, hcc]
    · rw [if_neg hn, run_pure, run_bind_ok]
      obtain ⟨g', e1, e2, e3, e4⟩ := ih hL.2 (fun c hc => hin c (by simp [hc])) g hg hgc
      refine ⟨g', e1, e2, e3, fun c' => ?_⟩
      obtain ⟨k1, k2⟩ := e4 c'
      by_cases hcc : c' = c
      · subst hcc
        rw [if_neg (fun h => hn h.2)] at k1 k2 ⊢
        rw [if_neg (fun h => hn h.2)]
        exact ⟨k1, k2⟩
      · have hm : (c' ∈ c :: L ∧ s.cnt.get c' > 1) ↔ (c' ∈ L ∧ s.cnt.get c' > 1) := by
          rw [List.mem_cons]; simp [hcc]
        simp only [hm]
        exact ⟨k1, k2⟩

theorem dispersionCells_spec (s : Sums K) (g : Grid K) (hs : s.Shaped g.geom.cells) (hg : g.Shaped) :
    ∃ g', dispersionCells s g = .ok g' ∧ g'.geom = g.geom ∧ g'.Shaped ∧
      ∀ c, InB g.geom.cells c → g'.st.data.get c = (if s.cnt.get c > 1 then g.st.data.get c + s.cellValue c else g.st.data.get c) ∧
        g'.st.weight.get c = (if s.cnt.get c > 1 then g.st.weight.get c + 1 else g.st.weight.get c) := by
  obtain ⟨g', h1, h2, h3, h4⟩ := dispersionCells_fold s g.geom.cells hs (indices 3 g.geom.cells) (nodup_indices _)
    (fun c hc => (mem_indices _ _).1 hc) g hg rfl
  refine ⟨g', h1, h2, h3, fun c hc => ?_⟩
  have := h4 c
  simp only [(mem_indices _ _).2 hc, true_and] at this
  exact this

/-- A finite position is inside a Cartesian grid with finite limits iff it is in the box. -/
theorem cart_inside (cells : CellId) (lo hi x : Fin 3 → K) :
    (Grid.newCart cells (finLimits lo hi)).geom.isInside (fun a => fin (x a)) = true ↔ ∀ a, lo a ≤ x a ∧ x a ≤ hi a := by
  change CartGeom.isInside (CartGeom.new cells (finLimits lo hi)) (fun a => fin (x a)) = true ↔ _
  rw [CartGeom.isInside_iff]
  unfold InBox
  simp [CartGeom.new, finLimits]

/-- The leads of a dispersion or displacement analysis over the timesteps `l`. -/
def Dm.leads (p : Profile) (sel : Selector K) (st : Stats K) (d : Dm (Timestep K)) (dt : F K) (l : List ℕ) : List (ℕ × ℕ × ℕ) :=
  Up4.leads sel d.file (partner p st.times d.file dt) l

theorem lead_in_range [LawfulArith K] (p : Profile) (sel : Selector K) (st : Stats K) (d : Dm (Timestep K)) (hd : d.Inv) (τ : ℕ → K)
    (hc : Clocked st d.file d.n τ) (δ : K) (l : List ℕ) (hl : ∀ t ∈ l, t < d.n) {t i t' : ℕ}
    (hx : (t, i, t') ∈ d.leads p sel st (fin δ) l) : t < d.n ∧ t' < d.n ∧ i < (d.file t).position.length := by
  obtain ⟨h1, h2⟩ := (mem_leads _ _ _ _ _ _ _).1 hx
  obtain ⟨ht, _, hi, _⟩ := (mem_samples _ _ _ _ _).1 h1
  have hlt := hl t ht
  exact ⟨hlt, (partner_spec p st d.file d.n τ hc (by omega) (le_trans hd.2.2 (by norm_num)) δ t hlt).2 t' h2, hi⟩

/-- `dispersion` in any arithmetic. -/
theorem dispersion_run [LawfulArith K] (p : Profile) (d : Dm (Timestep K)) (hd : d.CanLook) (st : Stats K) (τ : ℕ → K)
    (hc : Clocked st d.file d.n τ) (grid : Grid K) (hg : grid.Fillable p) (sel : Selector K) (hs : sel.Usable)
    (hw : ∀ t, t < d.n → (d.file t).Wf) (np : ℕ) (hnp : ∀ t, t < d.n → (d.file t).position.length = np) (δ : K) :
    ∃ d' g' m, dispersion p d st grid sel (fin δ) = .ok (d', g', m) ∧ d'.CanLook ∧ d'.file = d.file ∧ d'.n = d.n ∧
      g'.geom = grid.geom ∧ g'.Shaped ∧
      m = F.sum ((indices 3 grid.geom.cells).map fun c => g'.st.weight.get c * g'.st.data.get c) / F.sum g'.st.weight.toList ∧
      ∀ c, InB grid.geom.cells c →
        let S := (d.leads p sel st (fin δ) (List.range d.n)).filter fun x => inCell p grid.geom (startOf d.file x) c
        let z := grid.st.data.get c
        let Q := fun a => (S.map fun x => endOf d.file x a * endOf d.file x a).foldl (· + ·) z
        let M := fun a => (S.map fun x => endOf d.file x a).foldl (· + ·) z
        let N := (List.replicate S.length 1).foldl (· + ·) z
        g'.st.data.get c = (if N > 1 then 0 + dispersionCell N Q M else 0) ∧
        g'.st.weight.get c = if N > 1 then grid.st.weight.get c + 1 else grid.st.weight.get c := by
  obtain ⟨d1, e1, hd1, hf1, hn1⟩ := Dm.setup_looking p Timestep.default d hd
  obtain ⟨d2, l2, hd2, hf2, hn2, e2⟩ := futureLoop_eq p st sel hs δ (dispersionBody p grid) (List.range d1.n) d1 τ
    (by rw [hf1, hn1]; exact hc) (by rw [hf1, hn1]; exact hw) 0 hd1 (fun t ht => List.mem_range.1 ht)
    (List.pairwise_le_range) (fun _ _ _ _ => Nat.zero_le _) (Sums.init grid)
  have hsh : (Sums.init grid).Shaped grid.geom.cells := ⟨fun _ => hg.1.1, fun _ => hg.1.1, hg.1.1⟩
  set L := d.leads p sel st (fin δ) (List.range d.n) with hL
  obtain ⟨s, h1, h2, h3⟩ := sums_fill p grid.geom hg.2 L (startOf d.file) (endOf d.file) (Sums.init grid) hsh
  have hbody : (Up4.leads sel d1.file (partner p st.times d1.file (fin δ)) (List.range d1.n)).foldlM
      (fun s x => dispersionBody p grid (d1.file x.2.2) s (d1.file x.1) x.2.1) (Sums.init grid) = .ok s := by
    rw [hf1, hn1]
    change L.foldlM _ _ = _
    rw [← h1]
    apply foldlM_congr
    rintro s ⟨t, i, t'⟩ hx
    obtain ⟨ht, ht', hi⟩ := lead_in_range p sel st d hd.1 τ hc δ _ (fun t ht => List.mem_range.1 ht) hx
    have hi' : i < (d.file t').position.length := by rw [hnp t' ht', ← hnp t ht]; exact hi
    unfold dispersionBody
    rw [at_pos hi, run_bind_ok, at_pos hi']
    rfl
  obtain ⟨g', k1, k2, k3, k4⟩ := dispersionCells_spec s grid.newZeros h2 (newZeros_shaped hg.1)
  have hgs : g'.st.weight.shape = grid.geom.cells := by rw [k3.2, k2]; rfl
  have hgd : g'.st.data.shape = grid.geom.cells := by rw [k3.1, k2]; rfl
  obtain ⟨wd, w1, w2, w3⟩ := Arr.zipWith_same (· * ·) g'.st.weight g'.st.data (hgs.trans hgd.symm)
  refine ⟨d2, g', F.sum wd.toList / F.sum g'.st.weight.toList, ?_, hd2.canLook, hf2.trans hf1, hn2.trans hn1, k2, k3, ?_, ?_⟩
  · unfold dispersion
    rw [e1, run_bind_ok, allSteps_eq p d1 hd1.1, run_bind_ok, e2, hbody, run_bind_ok, run_bind_ok]
    dsimp only
    rw [k1, run_bind_ok, w1]
    rfl
  · congr 2
    unfold Arr.toList
    rw [w2, hgs]
    apply List.map_congr_left
    intro c hc
    exact w3 c (by rw [hgs]; exact (mem_indices _ _).1 hc)
  · intro c hcb
    obtain ⟨q1, q2, q3⟩ := h3 c
    intro S z Q M N
    obtain ⟨m1, m2⟩ := k4 c hcb
    have hN : s.cnt.get c = N := q3
    have hv : s.cellValue c = dispersionCell N Q M := by
      unfold Sums.cellValue
      rw [hN]
      congr 1
      · funext a; exact q1 a
      · funext a; exact q2 a
    rw [hN, hv] at m1
    rw [hN] at m2
    exact ⟨m1, m2⟩

/-- **C38.** Dispersion on a grid without contents, exact arithmetic. For every dataset whose time array is the nondecreasing
list of its (finite) times, whose timesteps all have the same number of particles, and whose samples have finite later
positions: a cell in which `n > 1` samples start holds the sum over the three axes of the unbiased sample variance of
their later positions (a nonnegative number), a cell with fewer holds 0. The second result is the plain average of those values over the
cells with `n > 1` (NaN if there are none). -/
theorem C38_dispersion [LawfulArith K] [ExactArith K] (p : Profile) (d : Dm (Timestep K)) (hd : d.CanLook) (st : Stats K) (τ : ℕ → K)
    (hc : Clocked st d.file d.n τ) (grid : Grid K) (hg : grid.Fillable p) (hfresh : ∀ c, grid.st.data.get c = 0)
    (hfreshw : ∀ c, grid.st.weight.get c = 0) (sel : Selector K) (hs : sel.Usable)
    (hw : ∀ t, t < d.n → (d.file t).Wf) (np : ℕ) (hnp : ∀ t, t < d.n → (d.file t).position.length = np) (δ : K)
    (w : ℕ × ℕ × ℕ → Fin 3 → K)
    (hfin : ∀ x ∈ d.leads p sel st (fin δ) (List.range d.n), grid.isInside (startOf d.file x) = true → ∀ a, endOf d.file x a = fin (w x a)) :
    ∃ d' g' m, dispersion p d st grid sel (fin δ) = .ok (d', g', m) ∧ d'.CanLook ∧ d'.file = d.file ∧ d'.n = d.n ∧
      g'.geom = grid.geom ∧
      let S := fun c => (d.leads p sel st (fin δ) (List.range d.n)).filter fun x => inCell p grid.geom (startOf d.file x) c
      let D := fun c => sampleVar ((S c).map fun x => w x 0) + sampleVar ((S c).map fun x => w x 1) + sampleVar ((S c).map fun x => w x 2)
      (∀ c, InB grid.geom.cells c → 1 < (S c).length → g'.st.data.get c = fin (D c) ∧ 0 ≤ D c ∧ g'.st.weight.get c = 1) ∧
      (∀ c, InB grid.geom.cells c → (S c).length ≤ 1 → g'.st.data.get c = 0 ∧ g'.st.weight.get c = 0) ∧
      let V := (cellsOf grid.geom.cells).filter fun c => 1 < (S c).length
      (V.card = 0 → m = F.nan) ∧ (V.card ≠ 0 → m = fin ((∑ c ∈ V, D c) / V.card)) := by
  obtain ⟨d', g', m, h1, h2, h3, h4, h5, hsh, hm, h6⟩ := dispersion_run p d hd st τ hc grid hg sel hs hw np hnp δ
  refine ⟨d', g', m, h1, h2, h3, h4, h5, ?_⟩
  intro S D
  have hcell : ∀ c, InB grid.geom.cells c → (1 < (S c).length → g'.st.data.get c = fin (D c) ∧ g'.st.weight.get c = fin 1) ∧
      ((S c).length ≤ 1 → g'.st.data.get c = fin 0 ∧ g'.st.weight.get c = fin 0) := by
    intro c hcb
    obtain ⟨k1, k2⟩ := h6 c hcb
    rw [hfresh c, F.zero_def] at k1 k2
    rw [hfreshw c, F.zero_def] at k2
    have hN : (List.replicate (S c).length (1 : F K)).foldl (· + ·) (fin 0) = fin ((S c).length : K) := by
      rw [foldl_ones_exact, zero_add]
    have hS : ∀ x ∈ S c, ∀ a, endOf d.file x a = F.fin (w x a) := by
      intro x hx a
      obtain ⟨g1, g2⟩ := List.mem_filter.1 hx
      unfold inCell at g2
      rw [Bool.and_eq_true] at g2
      exact hfin x g1 g2.1 a
    have hM : ∀ a, ((S c).map fun x => endOf d.file x a).foldl (· + ·) (fin 0) = fin ((S c).map fun x => w x a).sum := by
      intro a
      rw [map_fin (S c) _ (fun x => w x a) (fun x hx => hS x hx a), foldl_fin, zero_add]
    have hQ : ∀ a, ((S c).map fun x => endOf d.file x a * endOf d.file x a).foldl (· + ·) (fin 0) =
        fin ((((S c).map fun x => w x a)).map fun y => y * y).sum := by
      intro a
      rw [map_fin (S c) _ (fun x => w x a * w x a) (fun x hx => by rw [hS x hx a, F.emul]), foldl_fin, zero_add, List.map_map]
      rfl
    change g'.st.data.get c = (if (List.replicate (S c).length (1 : F K)).foldl (· + ·) (fin 0) > 1 then
      fin 0 + dispersionCell ((List.replicate (S c).length (1 : F K)).foldl (· + ·) (fin 0))
        (fun a => ((S c).map fun x => endOf d.file x a * endOf d.file x a).foldl (· + ·) (fin 0))
        (fun a => ((S c).map fun x => endOf d.file x a).foldl (· + ·) (fin 0)) else fin 0) at k1
    change g'.st.weight.get c = (if (List.replicate (S c).length (1 : F K)).foldl (· + ·) (fin 0) > 1 then fin 0 + 1 else fin 0) at k2
    simp only [hN, hM, hQ] at k1
    rw [hN] at k2
    constructor
    · intro hlt
      have hgt : (fin ((S c).length : K) : F K) > 1 := by
        change fin 1 < fin _
        rw [F.lt_fin]; exact_mod_cast hlt
      rw [if_pos hgt] at k1 k2
      rw [F.one_def, F.eadd, zero_add] at k2
      refine ⟨?_, k2⟩
      have hne : (S c) ≠ [] := by intro h; rw [h] at hlt; simp at hlt
      have hpos : ((S c).length : K) ≠ 0 := by exact_mod_cast (show (S c).length ≠ 0 by omega)
      have hpos1 : ((S c).length : K) - 1 ≠ 0 := by
        have : (1 : K) < ((S c).length : K) := by exact_mod_cast hlt
        linarith
      have hlen : ∀ a : Fin 3, ((S c).map fun x => w x a).length = (S c).length := fun a => List.length_map _
      rw [k1]
      unfold dispersionCell
      dsimp only
      rw [F.one_def]
      simp only [F.emul, F.ediv _ hpos, F.esub, F.eadd, F.ediv _ hpos1]
      congr 1
      have hid := fun a : Fin 3 => var_identity ((S c).map fun x => w x a) (by simpa using hne)
      have hsv := fun a : Fin 3 => sampleVar_eq ((S c).map fun x => w x a) (by rw [hlen a]; exact hlt)
      simp only [hlen] at hid hsv
      rw [hid 0, hid 1, hid 2]
      change _ = sampleVar _ + sampleVar _ + sampleVar _
      rw [hsv 0, hsv 1, hsv 2]
      field_simp
      ring
    · intro hle
      have hgt : ¬ (fin ((S c).length : K) : F K) > 1 := by
        change ¬ fin 1 < fin _
        rw [F.lt_fin, not_lt]; exact_mod_cast hle
      rw [if_neg hgt] at k1 k2
      exact ⟨k1, k2⟩
  refine ⟨fun c hcb hlt => ⟨((hcell c hcb).1 hlt).1, ?_, ((hcell c hcb).1 hlt).2⟩, fun c hcb hle => (hcell c hcb).2 hle, ?_⟩
  · have := fun a : Fin 3 => sampleVar_nonneg ((S c).map fun x => w x a) (by rw [List.length_map]; omega)
    exact add_nonneg (add_nonneg (this 0) (this 1)) (this 2)
  · intro V
    have e1 : F.sum ((indices 3 grid.geom.cells).map fun c => g'.st.weight.get c * g'.st.data.get c) = fin (∑ c ∈ V, D c) := by
      rw [map_fin _ _ (fun c => if 1 < (S c).length then D c else 0) (fun c hcm => ?_), sum_fin, sum_indices, Finset.sum_filter]
      have hcb := (mem_indices _ _).1 hcm
      by_cases hlt : 1 < (S c).length
      · rw [((hcell c hcb).1 hlt).1, ((hcell c hcb).1 hlt).2, F.emul, one_mul, if_pos hlt]
      · rw [((hcell c hcb).2 (by omega)).1, ((hcell c hcb).2 (by omega)).2, F.emul, mul_zero, if_neg hlt]
    have e2 : F.sum g'.st.weight.toList = fin (V.card : K) := by
      unfold Arr.toList
      rw [hsh.2, h5, map_fin _ _ (fun c => if 1 < (S c).length then 1 else 0) (fun c hcm => ?_), sum_fin, sum_indices, Finset.sum_boole]
      have hcb := (mem_indices _ _).1 hcm
      by_cases hlt : 1 < (S c).length
      · rw [((hcell c hcb).1 hlt).2, if_pos hlt]
      · rw [((hcell c hcb).2 (by omega)).2, if_neg hlt]
    rw [e1, e2] at hm
    constructor
    · intro h0
      have : V = ∅ := Finset.card_eq_zero.1 h0
      rw [hm, h0, this, Finset.sum_empty, Nat.cast_zero, F.div_fin]
      simp [F.infTimes]
    · intro h0
      rw [hm, F.ediv _ (by exact_mod_cast h0)]

/-- Statistics record of the demo dataset. -/
noncomputable def demoStats : Stats ℝ := ⟨fun _ => (fin 0, fin 2), 1, timesOf (fun i => 0 + (i : ℝ) * 1) 4, ![fin 5, fin 5, fin 5]⟩

/-- Witness for C38: four timesteps of the demo dataset, delay 1 s, one cell over `[0,4]³`. The three particles that start at
`0, 1/2, 1` are later at `1/2, 1, 3/2`: sample variance `1/4` per axis, dispersion `3/4`. -/
example (p : Profile) (kind : Kind) : ∃ (d d' : Dm (Timestep ℝ)) (g' : Grid ℝ) (m : F ℝ),
    Dm.new p kind demoFile 4 Timestep.default = .ok d ∧
    dispersion p d demoStats (Grid.newCart (fun _ => 1) (finLimits (fun _ => 0) (fun _ => 4))) Selector.default (fin 1) = .ok (d', g', m) ∧
    g'.st.data.get (fun _ => 0) = fin (3 / 4) := by
  obtain ⟨d, e, hd, hf, hn⟩ := Dm.canLook_new p kind demoFile 4 Timestep.default (by norm_num) (by norm_num) (Or.inr (by norm_num [BUFFERSIZE]))
  set grid : Grid ℝ := Grid.newCart (fun _ => 1) (finLimits (fun _ => 0) (fun _ => 4)) with hgrid
  have hfill : grid.Fillable p := fillable_cart p _ (isCart_new _ _ (fun _ => by norm_num))
  have hleads : d.leads p Selector.default demoStats (fin 1) (List.range d.n) = [(0, 0, 1), (1, 0, 2), (2, 0, 3)] := by
    unfold Dm.leads
    rw [hf, hn]
    exact demo_leads p demoStats rfl
  have hpos : ∀ t : ℕ, (demoFile t).pos 0 = fun _ => fin ((t : ℝ) / 2) := fun t => rfl
  obtain ⟨d', g', m, h1, _, _, _, _, h2, _⟩ := C38_dispersion p d hd demoStats (fun i => 0 + (i : ℝ) * 1)
    (by rw [hf, hn]; exact demo_clocked 4 _ rfl) grid hfill (fun _ => rfl) (fun _ => rfl) Selector.default usable_default
    (fun t _ => by rw [hf]; exact demoFile_wf t) 1 (fun t _ => by rw [hf]; rfl) 1 (fun x _ => (x.2.2 : ℝ) / 2)
    (by
      intro x hx _ a
      rw [hleads] at hx
      simp only [List.mem_cons, List.not_mem_nil, or_false] at hx
      rcases hx with rfl | rfl | rfl <;> (unfold endOf; rw [hf]; rfl))
  refine ⟨d, d', g', m, e, h1, ?_⟩
  have hin : ∀ t : ℕ, t ≤ 4 → inCell p grid.geom (fun _ => fin ((t : ℝ) / 2)) (fun _ => 0) = true := by
    intro t ht
    have hins : grid.geom.isInside (fun _ => fin ((t : ℝ) / 2)) = true := by
      have : (t : ℝ) ≤ 4 := by exact_mod_cast ht
      exact (cart_inside _ _ _ (fun _ => (t : ℝ) / 2)).2 fun a => ⟨by positivity, by linarith⟩
    obtain ⟨c, hc, hb⟩ := hfill.2.isSome hins
    have : c = fun _ => 0 := by
      funext a
      have : c a < 1 := hb a
      omega
    unfold inCell
    rw [hins, hc, this]
    simp
  have hS : ((d.leads p Selector.default demoStats (fin 1) (List.range d.n)).filter fun x =>
      inCell p grid.geom (startOf d.file x) (fun _ => 0)) = [(0, 0, 1), (1, 0, 2), (2, 0, 3)] := by
    rw [hleads, List.filter_eq_self]
    intro x hx
    simp only [List.mem_cons, List.not_mem_nil, or_false] at hx
    rcases hx with rfl | rfl | rfl
    · unfold startOf; rw [hf]; exact hin 0 (by norm_num)
    · unfold startOf; rw [hf]; exact hin 1 (by norm_num)
    · unfold startOf; rw [hf]; exact hin 2 (by norm_num)
  have := (h2 (fun _ => 0) (fun _ => Nat.one_pos) (by beta_reduce; rw [hS]; norm_num)).1
  rw [this]
  congr 1
  simp only [hS, List.map_cons, List.map_nil, sampleVar, mean, List.sum_cons, List.sum_nil, List.length_cons, List.length_nil]
  norm_num

end Up4
