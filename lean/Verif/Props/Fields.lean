import Verif.Proofs.Samples
import Verif.Props.Selector

set_option linter.unusedSectionVars false

/-! # C34–C36: number field, velocity field, vector field -/

namespace Up4
open F
open Selector (at')

variable {K : Type} [Field K] [LinearOrder K] [IsStrictOrderedRing K] [FloorRing K] [Arith K]

/-- Position of a sample. -/
def posOf (file : ℕ → Timestep K) (x : ℕ × ℕ) : Pos K := (file x.1).pos x.2
/-- Velocity of a sample. -/
def velOf (file : ℕ → Timestep K) (x : ℕ × ℕ) : Fin 3 → F K := (file x.1).vel x.2

/-- The sample's position is inside the grid and is looked up to cell `c`. -/
def inCell (p : Profile) (g : Geom K) (pos : Pos K) (c : CellId) : Bool :=
  g.isInside pos && decide (g.lookup p pos = some c)

/-- All samples of the dataset: the timesteps `0 … n-1`. -/
def Dm.samples (sel : Selector K) (d : Dm (Timestep K)) : List (ℕ × ℕ) := Up4.samples sel d.file (List.range d.n)

theorem at_pos {ts : Timestep K} {i : ℕ} (h : i < ts.position.length) : at' ts.position i = .ok (ts.pos i) := at_ok h _

theorem at_vel {ts : Timestep K} (hw : ts.Wf) {i : ℕ} (h : i < ts.position.length) :
    at' ts.velocity i = .ok (ts.vel i) := at_ok (hw.1 ▸ h) _

/-- A position the grid calls inside has no NaN coordinate. -/
theorem isInside_not_nan (g : Geom K) (pos : Pos K) (h : g.isInside pos = true) : posNaN pos = false := by
  cases g with
  | cart g =>
    have := (CartGeom.isInside_iff g pos).1 h
    have e : ∀ a, (pos a).isNaN = false := fun a => by
      have := (this a).1
      cases hx : pos a <;> simp_all
    simp [posNaN, e]
  | cyl g =>
    change CylGeom.isInside g pos = true at h
    unfold CylGeom.isInside at h
    simp only [Bool.and_eq_true, decide_eq_true_eq] at h
    obtain ⟨⟨hr, _⟩, hz, _⟩ := h
    unfold posNaN
    by_contra hc
    simp only [Bool.not_eq_false, Bool.or_eq_true, F.isNaN_iff] at hc
    rcases hc with (hx | hy) | hz'
    · apply F.nan_le g.radius
      have : g.toCylindrical pos 0 = F.nan := by
        change F.sqrt (_ + _) = _
        rw [hx]; simp [F.sqrt]
      rwa [this] at hr
    · apply F.nan_le g.radius
      have : g.toCylindrical pos 0 = F.nan := by
        change F.sqrt (_ + _) = _
        rw [hy]; simp [F.sqrt]
      rwa [this] at hr
    · have : g.toCylindrical pos 2 = F.nan := hz'
      rw [this] at hz
      exact absurd hz (F.le_nan _)

theorem hits_filter_map {α : Type} (p : Profile) (g : Geom K) (l : List α) (c : α → Bool) (f : α → Pos K × F K) (cell : CellId) :
    hits p g ((l.filter c).map f) cell = (l.filter fun x => c x && decide (g.lookup p (f x).1 = some cell)).map fun x => (f x).2 := by
  unfold hits
  rw [List.filter_map, List.map_map, List.filter_filter]
  congr 1
  apply List.filter_congr
  intro x _
  simp [Function.comp, Bool.and_comm]

/-- The accumulation every field analysis performs: over all samples of `L` accepted by `acc` and inside the grid,
`add_value(position, val)`. -/
theorem field_fill [LawfulArith K] (p : Profile) (g : Grid K) (hg : g.Fillable p) {α : Type} (L : List α)
    (pos : α → Pos K) (val : α → F K) (acc : α → Bool) :
    ∃ g', L.foldlM (fun g' x => if g.geom.isInside (pos x) && acc x then g'.addValue p (pos x) (val x) else pure g') g = .ok g' ∧
      g'.geom = g.geom ∧ g'.Shaped ∧
      ∀ c, g'.st.data.get c =
            ((L.filter fun x => inCell p g.geom (pos x) c && acc x).map val).foldl (· + ·) (g.st.data.get c) ∧
          g'.st.weight.get c =
            (List.replicate (L.filter fun x => inCell p g.geom (pos x) c && acc x).length 1).foldl (· + ·) (g.st.weight.get c) := by
  rw [foldlM_addAll p L (fun x => g.geom.isInside (pos x) && acc x) (fun x => (pos x, val x))]
  obtain ⟨g', h1, h2, h3, h4⟩ := Grid.addAll_spec (p := p) hg.1
    ((L.filter fun x => g.geom.isInside (pos x) && acc x).map fun x => (pos x, val x)) (by
      intro x hx
      simp only [List.mem_map, List.mem_filter, Bool.and_eq_true] at hx
      obtain ⟨y, ⟨_, hy, _⟩, rfl⟩ := hx
      exact hg.2.lookupOk hy)
  refine ⟨g', h1, h2, h3, fun c => ?_⟩
  have e : (L.filter fun x => (g.geom.isInside (pos x) && acc x) && decide (g.geom.lookup p (pos x) = some c)) =
      L.filter fun x => inCell p g.geom (pos x) c && acc x := by
    apply List.filter_congr
    intro x _
    unfold inCell
    cases g.geom.isInside (pos x) <;> cases acc x <;> simp
  have := h4 c
  rw [hits_filter_map, e, List.length_map] at this
  exact this

/-- The per-cell samples add up to the samples inside the grid. -/
theorem sum_inCell {α : Type} (p : Profile) (g : Geom K) (hg : g.Sound p) (L : List α) (pos : α → Pos K) :
    ∑ c ∈ cellsOf g.cells, (L.filter fun x => inCell p g (pos x) c).length = (L.filter fun x => g.isInside (pos x)).length := by
  induction L with
  | nil => simp
  | cons x L ih =>
    have hcons : ∀ c, ((x :: L).filter fun x => inCell p g (pos x) c).length =
        (if inCell p g (pos x) c then 1 else 0) + (L.filter fun x => inCell p g (pos x) c).length := by
      intro c
      by_cases h : inCell p g (pos x) c = true <;> simp [h, Nat.add_comm]
    simp only [hcons, Finset.sum_add_distrib, ih]
    by_cases hin : g.isInside (pos x) = true
    · obtain ⟨d, hd, hdb⟩ := hg.isSome hin
      have : ∀ c, inCell p g (pos x) c = decide (d = c) := by
        intro c; unfold inCell; rw [hin, hd]; simp
      simp only [this, List.filter_cons, hin, if_true, List.length_cons, decide_eq_true_eq]
      rw [Finset.sum_ite_eq (cellsOf g.cells) d (fun _ => 1), if_pos ((mem_cellsOf _ _).2 hdb)]
      omega
    · have : ∀ c, inCell p g (pos x) c = false := by
        intro c; unfold inCell; simp [hin]
      simp [this, hin]

/-! ### C34 -/

/-- **C34.** `numberfield`, for every dataset, selector and fillable grid (used or fresh), in any lawful arithmetic and
both profiles: it does not panic; each cell counts exactly the samples (timesteps 0 … n-1 with their time in the window,
particle chosen) inside the grid and looked up to the cell; the counts add up to the number of samples inside the grid,
at most the number of samples; a grid with zero weights gets the counts as weights too. -/
theorem C34_numberfield [LawfulArith K] (p : Profile) (d : Dm (Timestep K)) (hd : d.Inv) (grid : Grid K)
    (hg : grid.Fillable p) (sel : Selector K) (hs : sel.Usable) (hw : ∀ t, t < d.n → (d.file t).Wf)
    (hlen : (d.samples sel).length ≤ 2 ^ 53) :
    ∃ d' g', numberfield p d grid sel = .ok (d', g') ∧ d'.Inv ∧ d'.file = d.file ∧ d'.n = d.n ∧
      g'.geom = grid.geom ∧ g'.Shaped ∧
      (∀ c, g'.st.data.get c = F.fin (((d.samples sel).countP fun x => inCell p grid.geom (posOf d.file x) c : ℕ) : K)) ∧
      ((∀ c, grid.st.weight.get c = 0) → ∀ c, g'.st.weight.get c = g'.st.data.get c) ∧
      ∑ c ∈ cellsOf grid.geom.cells, ((d.samples sel).countP fun x => inCell p grid.geom (posOf d.file x) c) =
        ((d.samples sel).countP fun x => grid.isInside (posOf d.file x)) ∧
      ((d.samples sel).countP fun x => grid.isInside (posOf d.file x)) ≤ (d.samples sel).length := by
  obtain ⟨b, hb, _, e⟩ := loop_eq (K := K) p sel hs d hd hw (List.range d.n) (fun t ht => List.mem_range.1 ht)
    (numberBody p grid) grid.newZeros
  have hz : grid.newZeros.Fillable p := ⟨newZeros_shaped hg.1, hg.2⟩
  obtain ⟨g', h1, h2, h3, h4⟩ := field_fill p grid.newZeros hz (d.samples sel) (posOf d.file) (fun _ => 1) (fun _ => true)
  have hbody : (d.samples sel).foldlM (fun s x => numberBody p grid s (d.file x.1) x.2) grid.newZeros = .ok g' := by
    rw [← h1]
    apply foldlM_congr
    rintro s ⟨t, i⟩ hx
    obtain ⟨ht, _, hi, _⟩ := (mem_samples _ _ _ _ _).1 hx
    unfold numberBody
    rw [at_pos hi, run_bind_ok, Bool.and_true]
    rfl
  refine ⟨{ d with main := b }, g', ?_, ⟨hb, hd.2⟩, rfl, rfl, h2, h3, ?_, ?_, ?_, List.countP_le_length⟩
  · unfold numberfield
    rw [allSteps_eq p d hd, run_bind_ok, e]
    change ((d.samples sel).foldlM _ _ >>= _) = _
    rw [hbody]; rfl
  · intro c
    rw [(h4 c).1, List.map_const', List.countP_eq_length_filter]
    have hle : ((d.samples sel).filter fun x => inCell p grid.geom (posOf d.file x) c).length ≤ 2 ^ 53 :=
      (List.length_filter_le _ _).trans hlen
    have := foldl_ones (K := K) 0 _ (by simpa using hle)
    simp only [Bool.and_true]
    simpa [Grid.newZeros, Arr.const, F.zero_def] using this
  · intro hzero c
    rw [(h4 c).1, (h4 c).2, List.map_const']
    have : grid.newZeros.st.weight.get c = grid.newZeros.st.data.get c := hzero c
    rw [this]
  · simp only [List.countP_eq_length_filter]
    exact sum_inCell p grid.geom hg.2 (d.samples sel) (posOf d.file)

/-! ### A small dataset, used as witness -/

/-- One particle moving along the diagonal: at time `t` it is at `(t/2, t/2, t/2)` with velocity `(3, 0, 4)`. -/
noncomputable def demoFile (t : ℕ) : Timestep ℝ :=
  ⟨fin t, [fun _ => fin (t / 2)], [![fin 3, fin 0, fin 4]], [fin 1], [fin 1], [fin 0], [fin 0], [fin 0]⟩

theorem demoFile_wf (t : ℕ) : (demoFile t).Wf := ⟨rfl, rfl, rfl, rfl, rfl, rfl⟩

theorem usable_default : (Selector.default : Selector K).Usable := ⟨by simp [Selector.default], by simp [Selector.default],
  by simp [Selector.default], by simp [Selector.default]⟩

theorem chosen_default (ts : Timestep K) (i : ℕ) : ts.chosen Selector.default i = true := by
  unfold Timestep.chosen
  rw [C25_default_accepts]; rfl

theorem demo_time (t : ℕ) (h : t ≤ 10) : (Selector.default : Selector ℝ).timestepValid (demoFile t).time = true := by
  have h1 : ((t : ℕ) : ℝ) ≤ 10 := by exact_mod_cast h
  have key : ∀ x : ℝ, 1 ≤ x → 10 ≤ (2 ^ 53 - 1) * x := fun x hx => by norm_num; linarith
  have h2 : (10 : ℝ) ≤ (2 ^ 53 - 1) * 2 ^ 971 := key _ (one_le_pow₀ (by norm_num))
  have h3 : (0 : ℝ) ≤ t := Nat.cast_nonneg t
  unfold Selector.timestepValid
  simp only [Selector.default, demoFile, Bool.and_eq_true, decide_eq_true_eq, ge_iff_le, F.le_fin]
  change -((2 ^ 53 - 1) * 2 ^ 971 : ℝ) ≤ t ∧ (t : ℝ) ≤ (2 ^ 53 - 1) * 2 ^ 971
  exact ⟨(neg_nonpos.2 (le_trans (by norm_num) h2)).trans h3, h1.trans h2⟩

/-- The whole demo dataset of `n ≤ 10` timesteps is sampled by the default selector. -/
theorem demo_samples (n : ℕ) (h : n ≤ 10) :
    samples Selector.default demoFile (List.range n) = (List.range n).map fun t => (t, 0) := by
  unfold samples
  have : ∀ t ∈ List.range n, ((demoFile t).picks Selector.default).map (fun i => (t, i)) = [(t, 0)] := by
    intro t ht
    have ht := List.mem_range.1 ht
    unfold Timestep.picks
    rw [if_pos (demo_time t (by omega))]
    simp [demoFile, chosen_default]
  rw [List.flatMap_congr this]
  clear this h
  induction n with
  | zero => rfl
  | succ n ih => rw [List.range_succ, List.flatMap_append, List.map_append, ih]; rfl

/-- A manager for the demo dataset exists and satisfies the hypotheses of the field theorems. -/
theorem demo_manager (p : Profile) (kind : Kind) (n : ℕ) (h1 : 1 ≤ n) (h2 : n ≤ 10) :
    ∃ d : Dm (Timestep ℝ), Dm.new p kind demoFile n Timestep.default = .ok d ∧ d.Inv ∧ d.file = demoFile ∧ d.n = n ∧
      (∀ t, t < d.n → (d.file t).Wf) ∧ d.samples Selector.default = (List.range n).map fun t => (t, 0) := by
  obtain ⟨d, e, hinv, hf, hn, _⟩ := Dm.new_ok p kind demoFile n Timestep.default h1 (by omega)
  refine ⟨d, e, hinv, hf, hn, fun t _ => by rw [hf]; exact demoFile_wf t, ?_⟩
  unfold Dm.samples
  rw [hf, hn, demo_samples n h2]

/-- Witness for C34: four timesteps of the demo dataset and a 3×3×3 grid over `[0,1]³`; the sample at time 0 lies inside. -/
example : ∃ d : Dm (Timestep ℝ), d.Inv ∧ (∀ t, t < d.n → (d.file t).Wf) ∧ (d.samples Selector.default).length ≤ 2 ^ 53 ∧
    Grid.Fillable .debug (Grid.newCart (fun _ => 3) (finLimits (fun _ => (0 : ℝ)) (fun _ => 1))) ∧
    (Grid.newCart (fun _ => 3) (finLimits (fun _ => (0 : ℝ)) (fun _ => 1))).isInside (posOf d.file (0, 0)) = true := by
  obtain ⟨d, _, h1, h2, _, h4, h5⟩ := demo_manager .debug .tdata 4 (by norm_num) (by norm_num)
  refine ⟨d, h1, h4, by rw [h5]; simp, fillable_cart _ _ (isCart_new _ _ (fun _ => by norm_num)), ?_⟩
  rw [h2]
  change CartGeom.isInside (CartGeom.new (fun _ => 3) (finLimits (fun _ => (0 : ℝ)) (fun _ => 1))) (posOf demoFile (0, 0)) = true
  refine (CartGeom.isInside_iff _ _).2 (fun a => ?_)
  simp [posOf, Timestep.pos, demoFile, CartGeom.new, finLimits]

/-! ### C35 -/

/-- The value lies within the limits (false for NaN). -/
def within (lo hi v : F K) : Bool := decide (lo ≤ v ∧ v ≤ hi)

theorem within_eq {lo hi : F K} (hlo : lo ≠ F.nan) (hhi : hi ≠ F.nan) (v : F K) :
    within lo hi v = (!v.isNaN && !decide (v < lo ∨ v > hi)) := by
  unfold within
  cases v <;> cases lo <;> cases hi <;> simp_all
  all_goals rw [Bool.eq_iff_iff]; simp

/-- `velocityfield` for an arbitrary grid: what it adds to the contents. -/
theorem velocityfield_run [LawfulArith K] (p : Profile) (d : Dm (Timestep K)) (hd : d.Inv) (grid : Grid K)
    (hg : grid.Fillable p) (sel : Selector K) (hs : sel.Usable) (hw : ∀ t, t < d.n → (d.file t).Wf)
    (mode : String) (vcal : (Fin 3 → F K) → F K) (hm : velMode mode = .ok vcal) (lo hi : F K) (hlo : lo ≠ F.nan)
    (hhi : hi ≠ F.nan) :
    ∃ d' g', velocityfield p d grid sel mode lo hi = .ok (d', g') ∧ d'.Inv ∧ d'.file = d.file ∧ d'.n = d.n ∧
      g'.geom = grid.geom ∧ g'.Shaped ∧
      ∀ c, InB grid.geom.cells c →
        let vals := ((d.samples sel).filter fun x => inCell p grid.geom (posOf d.file x) c &&
          within lo hi (vcal (velOf d.file x))).map fun x => vcal (velOf d.file x)
        g'.st.weight.get c = (List.replicate vals.length 1).foldl (· + ·) (grid.st.weight.get c) ∧
        g'.st.data.get c = F.sum vals / g'.st.weight.get c := by
  obtain ⟨b, hb, _, e⟩ := loop_eq (K := K) p sel hs d hd hw (List.range d.n) (fun t ht => List.mem_range.1 ht)
    (velocityBody p grid vcal lo hi) grid.newZeros
  have hz : grid.newZeros.Fillable p := ⟨newZeros_shaped hg.1, hg.2⟩
  obtain ⟨g', h1, h2, h3, h4⟩ := field_fill p grid.newZeros hz (d.samples sel) (posOf d.file)
    (fun x => vcal (velOf d.file x)) (fun x => within lo hi (vcal (velOf d.file x)))
  have hbody : (d.samples sel).foldlM (fun s x => velocityBody p grid vcal lo hi s (d.file x.1) x.2) grid.newZeros = .ok g' := by
    rw [← h1]
    apply foldlM_congr
    rintro s ⟨t, i⟩ hx
    obtain ⟨ht, _, hi', _⟩ := (mem_samples _ _ _ _ _).1 hx
    have hwt := hw t (List.mem_range.1 ht)
    unfold velocityBody
    rw [at_pos hi', run_bind_ok]
    change _ = if grid.geom.isInside ((d.file t).pos i) && within lo hi (vcal ((d.file t).vel i)) then _ else _
    rw [within_eq hlo hhi]
    by_cases hin : grid.geom.isInside ((d.file t).pos i) = true
    · rw [if_neg (by rw [isInside_not_nan _ _ hin]; simp), at_vel hwt hi', run_bind_ok]
      by_cases hn : (vcal ((d.file t).vel i)).isNaN = true
      · rw [if_pos hn, if_neg (by simp [hn])]
      · rw [if_neg hn, if_neg (by unfold Grid.isInside; rw [hin]; simp)]
        by_cases hr : vcal ((d.file t).vel i) < lo ∨ vcal ((d.file t).vel i) > hi
        · rw [if_pos hr, if_neg (by simp [hr])]
        · rw [if_neg hr, if_pos (by simp [hin, hn, hr])]
          rfl
    · rw [if_neg (c := (_ && _) = true) (by simp [hin])]
      by_cases hp : posNaN ((d.file t).pos i) = true
      · rw [if_pos hp]
      · rw [if_neg hp, at_vel hwt hi', run_bind_ok]
        by_cases hn : (vcal ((d.file t).vel i)).isNaN = true
        · rw [if_pos hn]
        · rw [if_neg hn, if_pos (by unfold Grid.isInside; simpa using hin)]
  obtain ⟨q, hq1, hq2, hq3⟩ := Arr.zipWith_same (· / ·) g'.st.data g'.st.weight (h3.1.trans h3.2.symm)
  refine ⟨{ d with main := b }, { g' with st := { g'.st with data := q } }, ?_, ⟨hb, hd.2⟩, rfl, rfl, h2, ?_, ?_⟩
  · unfold velocityfield
    rw [hm, run_bind_ok, allSteps_eq p d hd, run_bind_ok, e]
    change ((((d.samples sel).foldlM _ _ >>= _) : Run _) >>= _) = _
    rw [hbody, run_bind_ok, run_bind_ok]
    unfold Grid.divideByWeight Store.divideByWeight
    dsimp only
    rw [hq1]; rfl
  · exact ⟨hq2.trans h3.1, h3.2⟩
  · intro c hc vals
    have hin : InB g'.st.data.shape c := by rw [h3.1, h2]; exact hc
    refine ⟨?_, ?_⟩
    · change g'.st.weight.get c = _
      rw [(h4 c).2]
      simp only [vals, List.length_map]
      rfl
    · change q.get c = _ / g'.st.weight.get c
      rw [hq3 c hin, (h4 c).1]
      rfl

/-- **C35.** `velocityfield` into a grid without contents, in any lawful arithmetic and both profiles: for every dataset,
selector, mode and limits it does not panic; the weight of a cell is the number of samples in the cell whose requested
velocity value lies within the limits, and its data is their sum divided by that number (NaN for no sample). -/
theorem C35_velocityfield [LawfulArith K] (p : Profile) (d : Dm (Timestep K)) (hd : d.Inv) (grid : Grid K)
    (hg : grid.Fillable p) (hfresh : ∀ c, grid.st.weight.get c = 0)
    (sel : Selector K) (hs : sel.Usable) (hw : ∀ t, t < d.n → (d.file t).Wf)
    (hlen : (d.samples sel).length ≤ 2 ^ 53)
    (mode : String) (vcal : (Fin 3 → F K) → F K) (hm : velMode mode = .ok vcal) (lo hi : F K) (hlo : lo ≠ F.nan)
    (hhi : hi ≠ F.nan) :
    ∃ d' g', velocityfield p d grid sel mode lo hi = .ok (d', g') ∧ d'.Inv ∧ d'.file = d.file ∧ d'.n = d.n ∧
      g'.geom = grid.geom ∧
      ∀ c, InB grid.geom.cells c →
        let vals := ((d.samples sel).filter fun x => inCell p grid.geom (posOf d.file x) c &&
          within lo hi (vcal (velOf d.file x))).map fun x => vcal (velOf d.file x)
        g'.st.weight.get c = F.fin (vals.length : K) ∧ g'.st.data.get c = F.sum vals / F.fin (vals.length : K) ∧
        (vals = [] → g'.st.data.get c = F.nan) := by
  obtain ⟨d', g', h1, h2, h3, h4, h5, _, h6⟩ := velocityfield_run p d hd grid hg sel hs hw mode vcal hm lo hi hlo hhi
  refine ⟨d', g', h1, h2, h3, h4, h5, fun c hc => ?_⟩
  obtain ⟨k1, k2⟩ := h6 c hc
  intro vals
  have hle : vals.length ≤ 2 ^ 53 := by
    simp only [vals, List.length_map]
    exact (List.length_filter_le _ _).trans hlen
  have hwt : g'.st.weight.get c = F.fin (vals.length : K) := by
    have h0 := foldl_ones (K := K) 0 vals.length (by omega)
    rw [Nat.cast_zero, Nat.zero_add] at h0
    rw [← h0, k1, hfresh c]; rfl
  rw [hwt] at k2
  refine ⟨hwt, k2, fun hnil => ?_⟩
  have k3 : g'.st.data.get c = F.sum vals / F.fin (vals.length : K) := k2
  rw [k3, hnil]
  simp [F.sum, F.zero_def, F.div_fin, F.infTimes]

/-- **C35, modes.** Which value each mode requests: a component, or the length of the velocity vector or of its
projection to a coordinate plane; any other mode panics. -/
theorem C35_modes (mode : String) :
    (velMode (K := K) mode = .ok fun v => v 0) ∧ (mode = "x" ∨ mode = "r") ∨
    (velMode (K := K) mode = .ok fun v => v 1) ∧ (mode = "y" ∨ mode = "theta") ∨
    (velMode (K := K) mode = .ok fun v => v 2) ∧ mode = "z" ∨
    (velMode (K := K) mode = .ok fun v => (v 0 * v 0 + v 1 * v 1 + v 2 * v 2).sqrt) ∧ mode = "absolute" ∨
    (velMode (K := K) mode = .ok fun v => (v 0 * v 0 + v 1 * v 1).sqrt) ∧ mode = "xy" ∨
    (velMode (K := K) mode = .ok fun v => (v 0 * v 0 + v 2 * v 2).sqrt) ∧ mode = "xz" ∨
    (velMode (K := K) mode = .ok fun v => (v 1 * v 1 + v 2 * v 2).sqrt) ∧ mode = "yz" ∨
    (velMode (K := K) mode = .error .explicit ∧ mode ∉ ["x", "r", "y", "theta", "z", "absolute", "xy", "xz", "yz"]) := by
  unfold velMode
  by_cases h1 : mode = "absolute"
  · subst h1; simp [F.sq]
  by_cases h2 : mode = "x" ∨ mode = "r"
  · rw [if_neg h1, if_pos h2]; exact Or.inl ⟨rfl, h2⟩
  by_cases h3 : mode = "y" ∨ mode = "theta"
  · rw [if_neg h1, if_neg h2, if_pos h3]; exact Or.inr (Or.inl ⟨rfl, h3⟩)
  by_cases h4 : mode = "xy"
  · subst h4; simp [F.sq]
  by_cases h5 : mode = "xz"
  · subst h5; simp [F.sq]
  by_cases h6 : mode = "yz"
  · subst h6; simp [F.sq]
  by_cases h7 : mode = "z"
  · subst h7; simp
  · rw [if_neg h1, if_neg h2, if_neg h3, if_neg h4, if_neg h5, if_neg h6, if_neg h7]
    simp only [not_or] at h2 h3
    right; right; right; right; right; right; right
    exact ⟨rfl, by simp [h1, h2, h3, h4, h5, h6, h7]⟩

theorem list_mean_between (lo hi : K) (m : List K) (hne : m ≠ []) (hm : ∀ v ∈ m, lo ≤ v ∧ v ≤ hi) :
    lo ≤ m.sum / (m.length : K) ∧ m.sum / (m.length : K) ≤ hi := by
  have hsum : lo * m.length ≤ m.sum ∧ m.sum ≤ hi * m.length := by
    clear hne
    induction m with
    | nil => simp
    | cons a m ih =>
      have h1 := ih (fun v hv => hm v (by simp [hv]))
      have h2 := hm a (by simp)
      simp only [List.sum_cons, List.length_cons, Nat.cast_add, Nat.cast_one, mul_add, mul_one]
      constructor <;> linarith [h1.1, h1.2, h2.1, h2.2]
  have hpos : (0 : K) < m.length := by exact_mod_cast List.length_pos_iff.2 hne
  exact ⟨(le_div_iff₀ hpos).2 hsum.1, (div_le_iff₀ hpos).2 hsum.2⟩

/-- Values within finite limits are finite. -/
theorem within_fin {lo hi : K} {v : F K} (h : within (fin lo) (fin hi) v = true) : ∃ x, v = fin x ∧ lo ≤ x ∧ x ≤ hi := by
  unfold within at h
  simp only [decide_eq_true_eq] at h
  cases v <;> simp_all

theorem sum_fin [ExactArith K] (l : List K) : F.sum (l.map F.fin) = F.fin l.sum := by
  unfold F.sum
  rw [F.zero_def, foldl_fin, zero_add]

/-- **C35, exact arithmetic.** With finite limits, every cell with at least one accepted sample holds the arithmetic
mean of the accepted values — a number within the limits — and every other cell is NaN. -/
theorem C35_mean [LawfulArith K] [ExactArith K] (p : Profile) (d : Dm (Timestep K)) (hd : d.Inv) (grid : Grid K)
    (hg : grid.Fillable p) (hfresh : ∀ c, grid.st.weight.get c = 0)
    (sel : Selector K) (hs : sel.Usable) (hw : ∀ t, t < d.n → (d.file t).Wf)
    (hlen : (d.samples sel).length ≤ 2 ^ 53)
    (mode : String) (vcal : (Fin 3 → F K) → F K) (hm : velMode mode = .ok vcal) (lo hi : K) :
    ∃ d' g', velocityfield p d grid sel mode (fin lo) (fin hi) = .ok (d', g') ∧
      ∀ c, InB grid.geom.cells c → ∃ vals : List K,
        vals.map F.fin = (((d.samples sel).filter fun x => inCell p grid.geom (posOf d.file x) c &&
          within (fin lo) (fin hi) (vcal (velOf d.file x))).map fun x => vcal (velOf d.file x)) ∧
        (vals = [] → g'.st.data.get c = F.nan) ∧
        (vals ≠ [] → g'.st.data.get c = F.fin (vals.sum / vals.length) ∧
          lo ≤ vals.sum / vals.length ∧ vals.sum / vals.length ≤ hi) := by
  obtain ⟨d', g', h1, h2, h3, h4, h5, h6⟩ := C35_velocityfield p d hd grid hg hfresh sel hs hw hlen mode vcal hm
    (fin lo) (fin hi) (by simp) (by simp)
  refine ⟨d', g', h1, fun c hc => ?_⟩
  obtain ⟨k1, k2, k3⟩ := h6 c hc
  set vals' := ((d.samples sel).filter fun x => inCell p grid.geom (posOf d.file x) c &&
      within (fin lo) (fin hi) (vcal (velOf d.file x))).map fun x => vcal (velOf d.file x) with hv
  have hall : ∀ v ∈ vals', ∃ x, v = fin x ∧ lo ≤ x ∧ x ≤ hi := by
    intro v hv'
    rw [hv] at hv'
    simp only [List.mem_map, List.mem_filter, Bool.and_eq_true] at hv'
    obtain ⟨x, ⟨_, _, hx⟩, rfl⟩ := hv'
    exact within_fin hx
  clear_value vals'
  obtain ⟨vals, e, hb⟩ : ∃ vals : List K, vals.map F.fin = vals' ∧ ∀ x ∈ vals, lo ≤ x ∧ x ≤ hi := by
    clear k1 k2 k3 hv
    induction vals' with
    | nil => exact ⟨[], rfl, by simp⟩
    | cons a l ih =>
      obtain ⟨x, hx, hb⟩ := hall a (by simp)
      obtain ⟨m, hm, hb'⟩ := ih (fun v hv => hall v (by simp [hv]))
      refine ⟨x :: m, by simp [hm, hx], ?_⟩
      intro y hy
      rcases List.mem_cons.1 hy with rfl | hy
      · exact hb
      · exact hb' y hy
  subst e
  refine ⟨vals, rfl, fun hn => k3 (by simp [hn]), fun hne => ⟨?_, list_mean_between lo hi vals hne hb⟩⟩
  have hpos : (vals.length : K) ≠ 0 := by exact_mod_cast (List.length_pos_iff.2 hne).ne'
  rw [k2, sum_fin, List.length_map, F.ediv _ hpos]

/-- Witness for C35: a fresh grid has zero weights. -/
example : ∀ c, (Grid.newCart (fun _ => 3) (finLimits (fun _ => (0 : ℝ)) (fun _ => 1))).st.weight.get c = 0 := fun _ => rfl

/-! ### C36 -/

/-- `vectorfield` for an arbitrary grid: what it adds to the contents. -/
theorem vectorfield_run [LawfulArith K] (p : Profile) (d : Dm (Timestep K)) (hd : d.Inv) (grid : Grid K)
    (hg : grid.Fillable p) (sel : Selector K) (hs : sel.Usable) (hw : ∀ t, t < d.n → (d.file t).Wf) :
    ∃ d' g', vectorfield p d grid sel = .ok (d', g') ∧ d'.Inv ∧ d'.file = d.file ∧ d'.n = d.n ∧
      ∀ a, (g'.comp a).geom = grid.geom ∧ (g'.comp a).Shaped ∧
        ∀ c, InB grid.geom.cells c →
          let vals := ((d.samples sel).filter fun x => inCell p grid.geom (posOf d.file x) c).map fun x =>
            (VecGrid.new grid).velocityCalculation (posOf d.file x) (velOf d.file x) a
          (g'.comp a).st.weight.get c = (List.replicate vals.length 1).foldl (· + ·) (grid.st.weight.get c) ∧
          (g'.comp a).st.data.get c = vals.foldl (· + ·) (grid.st.data.get c) / (g'.comp a).st.weight.get c := by
  obtain ⟨b, hb, _, e⟩ := loop_eq (K := K) p sel hs d hd hw (List.range d.n) (fun t ht => List.mem_range.1 ht)
    (vectorBody p) (VecGrid.new grid)
  have H := fun a : Fin 3 => field_fill p grid hg (d.samples sel) (posOf d.file)
    (fun x => (VecGrid.new grid).velocityCalculation (posOf d.file x) (velOf d.file x) a) (fun _ => true)
  choose gs h1 h2 h3 h4 using H
  have hbody : (d.samples sel).foldlM (fun s x => vectorBody p s (d.file x.1) x.2) (VecGrid.new grid) =
      .ok { VecGrid.new grid with comp := ![gs 0, gs 1, gs 2] } := by
    have key : ∀ (L : List (ℕ × ℕ)), (∀ x ∈ L, x ∈ d.samples sel) → ∀ (a0 a1 a2 r0 r1 r2 : Grid K),
        a0.geom = grid.geom → a0.Shaped →
        L.foldlM (fun g' x => if grid.geom.isInside (posOf d.file x) && true then g'.addValue p (posOf d.file x)
          ((VecGrid.new grid).velocityCalculation (posOf d.file x) (velOf d.file x) 0) else pure g') a0 = .ok r0 →
        L.foldlM (fun g' x => if grid.geom.isInside (posOf d.file x) && true then g'.addValue p (posOf d.file x)
          ((VecGrid.new grid).velocityCalculation (posOf d.file x) (velOf d.file x) 1) else pure g') a1 = .ok r1 →
        L.foldlM (fun g' x => if grid.geom.isInside (posOf d.file x) && true then g'.addValue p (posOf d.file x)
          ((VecGrid.new grid).velocityCalculation (posOf d.file x) (velOf d.file x) 2) else pure g') a2 = .ok r2 →
        L.foldlM (fun s x => vectorBody p s (d.file x.1) x.2) { VecGrid.new grid with comp := ![a0, a1, a2] } =
          .ok { VecGrid.new grid with comp := ![r0, r1, r2] } := by
      intro L
      induction L with
      | nil => intro _ a0 a1 a2 r0 r1 r2 _ _ e0 e1 e2; cases e0; cases e1; cases e2; rfl
      | cons x L ih =>
        intro hmem a0 a1 a2 r0 r1 r2 hgeo hsh0 e0 e1 e2
        obtain ⟨t, i⟩ := x
        obtain ⟨ht, _, hi', _⟩ := (mem_samples _ _ _ _ _).1 (hmem (t, i) (by simp))
        have hwt := hw t (List.mem_range.1 ht)
        rw [List.foldlM_cons] at e0 e1 e2 ⊢
        obtain ⟨s0, f0, e0⟩ := run_bind_inv e0
        obtain ⟨s1, f1, e1⟩ := run_bind_inv e1
        obtain ⟨s2, f2, e2⟩ := run_bind_inv e2
        have hgeo' : s0.geom = grid.geom ∧ s0.Shaped := by
          rw [Bool.and_true] at f0
          by_cases hin : grid.geom.isInside (posOf d.file (t, i)) = true
          · rw [if_pos hin] at f0
            have := addValue_shaped hsh0 f0
            exact ⟨this.1.trans hgeo, this.2⟩
          · rw [if_neg hin] at f0; cases f0; exact ⟨hgeo, hsh0⟩
        have step : vectorBody p { VecGrid.new grid with comp := ![a0, a1, a2] } (d.file t) i =
            .ok { VecGrid.new grid with comp := ![s0, s1, s2] } := by
          unfold vectorBody
          rw [at_pos hi', run_bind_ok]
          rw [Bool.and_true] at f0 f1 f2
          by_cases hin : grid.geom.isInside (posOf d.file (t, i)) = true
          · have hin' : VecGrid.isInside { VecGrid.new grid with comp := ![a0, a1, a2] } ((d.file t).pos i) = true := by
              change a0.geom.isInside _ = true
              rw [hgeo]; exact hin
            rw [if_pos hin] at f0 f1 f2
            rw [if_neg (by have := isInside_not_nan _ _ hin; unfold posOf at this; rw [this]; simp), at_vel hwt hi', run_bind_ok,
              if_pos hin']
            change ((a0.addValue p ((d.file t).pos i) ((VecGrid.new grid).velocityCalculation ((d.file t).pos i) ((d.file t).vel i) 0)) >>= _) = _
            unfold posOf velOf at f0 f1 f2
            rw [f0, run_bind_ok]
            change ((a1.addValue p ((d.file t).pos i) ((VecGrid.new grid).velocityCalculation ((d.file t).pos i) ((d.file t).vel i) 1)) >>= _) = _
            rw [f1, run_bind_ok]
            change ((a2.addValue p ((d.file t).pos i) ((VecGrid.new grid).velocityCalculation ((d.file t).pos i) ((d.file t).vel i) 2)) >>= _) = _
            rw [f2, run_bind_ok]; rfl
          · have hin' : ¬ VecGrid.isInside { VecGrid.new grid with comp := ![a0, a1, a2] } ((d.file t).pos i) = true := by
              change ¬ a0.geom.isInside _ = true
              rw [hgeo]; exact hin
            rw [if_neg hin] at f0 f1 f2
            cases f0; cases f1; cases f2
            by_cases hp : posNaN ((d.file t).pos i) = true
            · rw [if_pos hp]; rfl
            · rw [if_neg hp, at_vel hwt hi', run_bind_ok, if_neg hin']; rfl
        change (vectorBody p { VecGrid.new grid with comp := ![a0, a1, a2] } (d.file t) i >>= _) = _
        rw [step, run_bind_ok]
        exact ih (fun x hx => hmem x (by simp [hx])) s0 s1 s2 r0 r1 r2 hgeo'.1 hgeo'.2 e0 e1 e2
    have := key (d.samples sel) (fun _ h => h) grid grid grid (gs 0) (gs 1) (gs 2) rfl hg.1 (h1 0) (h1 1) (h1 2)
    have e0 : ({ VecGrid.new grid with comp := ![grid, grid, grid] } : VecGrid K) = VecGrid.new grid := by
      have : (![grid, grid, grid] : Fin 3 → Grid K) = (VecGrid.new grid).comp := by
        funext a; fin_cases a <;> rfl
      rw [this]
    rw [e0] at this
    exact this
  have Q := fun a : Fin 3 => Arr.zipWith_same (· / ·) (gs a).st.data (gs a).st.weight ((h3 a).1.trans (h3 a).2.symm)
  choose q hq1 hq2 hq3 using Q
  have hdw : ∀ a, (gs a).divideByWeight = .ok { gs a with st := { (gs a).st with data := q a } } := by
    intro a
    unfold Grid.divideByWeight Store.divideByWeight
    rw [hq1 a]; rfl
  refine ⟨{ d with main := b }, { VecGrid.new grid with comp := fun a => { gs a with st := { (gs a).st with data := q a } } },
    ?_, ⟨hb, hd.2⟩, rfl, rfl, ?_⟩
  · unfold vectorfield
    rw [allSteps_eq p d hd, run_bind_ok, e]
    change ((((d.samples sel).foldlM _ _ >>= _) : Run _) >>= _) = _
    rw [hbody, run_bind_ok, run_bind_ok]
    unfold VecGrid.divideByWeight VecGrid.each
    change ((gs 0).divideByWeight >>= _ >>= _) = _
    rw [hdw 0, run_bind_ok]
    change ((gs 1).divideByWeight >>= _ >>= _) = _
    rw [hdw 1, run_bind_ok]
    change ((gs 2).divideByWeight >>= _ >>= _) = _
    rw [hdw 2, run_bind_ok]
    simp only [run_pure, run_bind_ok]
    congr 3
    funext a; fin_cases a <;> rfl
  · intro a
    refine ⟨h2 a, ⟨(hq2 a).trans (h3 a).1, (h3 a).2⟩, fun c hc => ?_⟩
    intro vals
    have hin : InB (gs a).st.data.shape c := by rw [(h3 a).1, h2 a]; exact hc
    have k := h4 a c
    simp only [Bool.and_true] at k
    refine ⟨?_, ?_⟩
    · change (gs a).st.weight.get c = _
      rw [k.2]
      simp only [vals, List.length_map]
    · change (q a).get c = _ / (gs a).st.weight.get c
      rw [hq3 a c hin, k.1]

/-- **C36.** `vectorfield` into a grid without contents, any lawful arithmetic, both profiles: no panic; in every cell
the weight of each component is the number of samples in the cell and its data the sum of that velocity component over
them divided by their number (NaN for no sample). For a Cartesian grid the component is the plain velocity component;
for a cylindrical one it is the component `velocity_calculation` yields (C23). -/
theorem C36_vectorfield [LawfulArith K] (p : Profile) (d : Dm (Timestep K)) (hd : d.Inv) (grid : Grid K)
    (hg : grid.Fillable p) (hfresh : ∀ c, grid.st.weight.get c = 0 ∧ grid.st.data.get c = 0)
    (sel : Selector K) (hs : sel.Usable) (hw : ∀ t, t < d.n → (d.file t).Wf)
    (hlen : (d.samples sel).length ≤ 2 ^ 53) :
    ∃ d' g', vectorfield p d grid sel = .ok (d', g') ∧ d'.Inv ∧ d'.file = d.file ∧ d'.n = d.n ∧
      ∀ a, (g'.comp a).geom = grid.geom ∧ ∀ c, InB grid.geom.cells c →
        let S := (d.samples sel).filter fun x => inCell p grid.geom (posOf d.file x) c
        let comp := fun x : ℕ × ℕ => (VecGrid.new grid).velocityCalculation (posOf d.file x) (velOf d.file x) a
        (g'.comp a).st.weight.get c = F.fin (S.length : K) ∧
        (g'.comp a).st.data.get c = F.sum (S.map comp) / F.fin (S.length : K) ∧
        (S = [] → (g'.comp a).st.data.get c = F.nan) ∧
        (grid.geom.isCylindrical = false → ∀ x, comp x = velOf d.file x a) := by
  obtain ⟨d', g', h1, h2, h3, h4, h5⟩ := vectorfield_run p d hd grid hg sel hs hw
  refine ⟨d', g', h1, h2, h3, h4, fun a => ⟨(h5 a).1, fun c hc => ?_⟩⟩
  obtain ⟨k1, k2⟩ := (h5 a).2.2 c hc
  intro S comp
  have hle : S.length ≤ 2 ^ 53 := (List.length_filter_le _ _).trans hlen
  have hwt : (g'.comp a).st.weight.get c = F.fin (S.length : K) := by
    have h0 := foldl_ones (K := K) 0 S.length (by omega)
    rw [Nat.cast_zero, Nat.zero_add] at h0
    rw [← h0, k1, (hfresh c).1, List.length_map]; rfl
  have hdt : (g'.comp a).st.data.get c = F.sum (S.map comp) / F.fin (S.length : K) := by
    rw [k2, hwt, (hfresh c).2]; rfl
  refine ⟨hwt, hdt, fun hnil => ?_, fun hcart x => ?_⟩
  · rw [hdt, hnil]
    simp [F.sum, F.zero_def, F.div_fin, F.infTimes]
  · change (VecGrid.new grid).velocityCalculation _ _ a = _
    unfold VecGrid.velocityCalculation VecGrid.new
    cases hgeo : grid.geom with
    | cart cg => rfl
    | cyl cg => rw [hgeo] at hcart; simp [Geom.isCylindrical] at hcart

/-- **C36, exact arithmetic.** If the requested components of the samples are finite, a visited cell holds their mean. -/
theorem C36_mean [LawfulArith K] [ExactArith K] (p : Profile) (d : Dm (Timestep K)) (hd : d.Inv) (grid : Grid K)
    (hg : grid.Fillable p) (hfresh : ∀ c, grid.st.weight.get c = 0 ∧ grid.st.data.get c = 0)
    (hcart : grid.geom.isCylindrical = false)
    (sel : Selector K) (hs : sel.Usable) (hw : ∀ t, t < d.n → (d.file t).Wf)
    (hlen : (d.samples sel).length ≤ 2 ^ 53) (v : ℕ × ℕ → Fin 3 → K)
    (hv : ∀ x ∈ d.samples sel, ∀ a, velOf d.file x a = F.fin (v x a)) :
    ∃ d' g', vectorfield p d grid sel = .ok (d', g') ∧ ∀ a c, InB grid.geom.cells c →
      let S := (d.samples sel).filter fun x => inCell p grid.geom (posOf d.file x) c
      (S = [] → (g'.comp a).st.data.get c = F.nan) ∧
      (S ≠ [] → (g'.comp a).st.data.get c = F.fin ((S.map fun x => v x a).sum / S.length)) := by
  obtain ⟨d', g', h1, _, _, _, h5⟩ := C36_vectorfield p d hd grid hg hfresh sel hs hw hlen
  refine ⟨d', g', h1, fun a c hc => ?_⟩
  intro S
  obtain ⟨_, k2, k3, k4⟩ := (h5 a).2 c hc
  refine ⟨k3, fun hne => ?_⟩
  have hpos : (S.length : K) ≠ 0 := by exact_mod_cast (List.length_pos_iff.2 hne).ne'
  have e : (S.map fun x => (VecGrid.new grid).velocityCalculation (posOf d.file x) (velOf d.file x) a) =
      (S.map fun x => v x a).map F.fin := by
    rw [List.map_map]
    apply List.map_congr_left
    intro x hx
    have := k4 hcart x
    exact this.trans (hv x (List.mem_of_mem_filter hx) a)
  rw [k2, e, sum_fin, F.ediv _ hpos]

/-- Witness for C36: the demo samples have finite velocities. -/
example (x : ℕ × ℕ) (hx : x ∈ (List.range 4).map fun t => (t, 0)) (a : Fin 3) :
    velOf demoFile x a = F.fin ((![3, 0, 4] : Fin 3 → ℝ) a) := by
  simp only [List.mem_map, List.mem_range] at hx
  obtain ⟨t, _, rfl⟩ := hx
  fin_cases a <;> rfl

end Up4
