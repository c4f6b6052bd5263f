import Verif.Model.Compare
import Verif.Props.Threshold
import Verif.Props.Interpolate
import Verif.Props.Fields
import Verif.Props.Dispersion
import Verif.Props.Units
import Verif.RealArith
import Verif.Props.UsedGrid

set_option linter.unusedSectionVars false

/-! # C132: aligning two datasets -/

namespace Up4
open F
open Selector (at')

variable {K : Type} [Field K] [LinearOrder K] [IsStrictOrderedRing K] [FloorRing K] [Arith K]

/-- The cells of the grids `align` makes: 100 along each axis. -/
def hundred : CellId := ![100, 100, 100]

/-- How often the particles of a dataset are seen in a cell. -/
def visits (p : Profile) (d : Dm (Timestep K)) (g : Geom K) (c : CellId) : ℕ :=
  (d.samples Selector.default).countP fun x => inCell p g (posOf d.file x) c

/-- Number of the 100³ cells with a property. -/
def cellsWith (P : CellId → Prop) [DecidablePred P] : ℕ := ((cellsOf hundred).filter P).card

/-- `T` is the 10001st smallest of the positive numbers of visits (one percent of the 100³ cells are passed over). -/
def IsThreshold (n : CellId → ℕ) (T : ℕ) : Prop :=
  cellsWith (fun c => 0 < n c ∧ n c < T) ≤ 10000 ∧ 10000 < cellsWith (fun c => 0 < n c ∧ n c ≤ T)

/-- `m` is the number of cells that are visited more often than the threshold in exactly one of the two datasets. -/
def IsMismatch (n n2 : CellId → ℕ) (m : ℕ) : Prop :=
  ∃ T T2, IsThreshold n T ∧ IsThreshold n2 T2 ∧ m = cellsWith fun c => ¬ (T < n c ↔ T2 < n2 c)

theorem cellsWith_mono (P Q : CellId → Prop) [DecidablePred P] [DecidablePred Q] (h : ∀ c, P c → Q c) : cellsWith P ≤ cellsWith Q := by
  unfold cellsWith
  generalize cellsOf hundred = s
  apply Finset.card_le_card
  intro c hc
  rw [Finset.mem_filter] at hc ⊢
  exact ⟨hc.1, h c hc.2⟩

theorem count_cells (P : CellId → Prop) [DecidablePred P] : (indices 3 hundred).countP (fun c => decide (P c)) = cellsWith P := by
  unfold cellsWith
  rw [List.countP_eq_length_filter, ← toFinset_indices]
  have h : (Finset.filter P (indices 3 hundred).toFinset) = ((indices 3 hundred).filter fun c => decide (P c)).toFinset := by
    ext c; simp
  rw [h, List.toFinset_card_of_nodup ((nodup_indices _).filter _)]

theorem threshold_index [ExactArith K] (l : List (F K)) (h : l.length = 1000000) : 10000 = (F.ofNat l.length * F.lit (1 / 100) : F K).toUsize := by
  rw [h, F.eofNat, F.elit, F.emul]
  change _ = min ⌊((1000000 : ℕ) : K) * (1 / 100)⌋₊ usizeMax
  have : ((1000000 : ℕ) : K) * (1 / 100) = ((10000 : ℕ) : K) := by push_cast; norm_num
  rw [this, Nat.floor_natCast]
  rfl

theorem countNonzero_cells (f : Arr 3 (F K)) (hs : f.shape = hundred) (n : CellId → ℕ) (hn : ∀ c, f.get c = fin ((n c : ℕ) : K))
    (q : F K → Prop) [DecidablePred q] (P : ℕ → Prop) [DecidablePred P] (hq : ∀ k : ℕ, q (fin (k : K)) ↔ P k) :
    countNonzero (flatten f) q = cellsWith fun c => 0 < n c ∧ P (n c) := by
  unfold countNonzero flatten
  rw [List.countP_map, hs, ← count_cells]
  apply List.countP_congr
  intro c _
  simp only [Function.comp, hn, Bool.and_eq_true, Bool.not_eq_true', decide_eq_true_eq, hq]
  apply and_congr_left
  intro _
  rw [Nat.pos_iff_ne_zero]
  have : F.eqB (fin ((n c : ℕ) : K)) 0 = decide (((n c : ℕ) : K) = 0) := rfl
  rw [this, decide_eq_false_iff_not, Nat.cast_eq_zero]

/-- `binary_threshold` of a field of counts: the mask of the cells above the threshold, or a panic if at most 10000 cells were visited. -/
theorem threshold_counts [ExactArith K] (f : Arr 3 (F K)) (hs : f.shape = hundred) (n : CellId → ℕ) (hn : ∀ c, f.get c = fin ((n c : ℕ) : K)) :
    (10000 < cellsWith (fun c => 0 < n c) → ∃ T out, binaryThreshold f (F.lit (1 / 100)) = .ok out ∧ IsThreshold n T ∧ out.shape = hundred ∧
      ∀ c, out.get c = if T < n c then 1 else 0) ∧
    (cellsWith (fun c => 0 < n c) ≤ 10000 → binaryThreshold f (F.lit (1 / 100)) = .error .unwrap) := by
  have hlen : (flatten f).length = 1000000 := by
    unfold flatten
    rw [List.length_map, length_indices, hs]
    simp [hundred, Fin.prod_univ_three]
  have hnn : ∀ x ∈ flatten f, x ≠ nan := by
    intro x hx
    obtain ⟨c, _, rfl⟩ := List.mem_map.1 hx
    rw [hn]; simp
  have hq0 : (0 : F K) ≤ F.lit (1 / 100) := by rw [F.elit]; exact (F.le_fin _ _).2 (by norm_num)
  have hq1 : (F.lit (1 / 100) : F K) ≤ 1 := by rw [F.elit]; exact (F.le_fin _ _).2 (by norm_num)
  unfold IsThreshold
  have hi := threshold_index (K := K) _ hlen
  generalize 10000 = i at hi ⊢
  obtain ⟨h1, h2⟩ := C57_threshold_partial f (F.lit (1 / 100)) hq0 hq1 hnn i hi
  have hall : countNonzero (flatten f) (fun _ => True) = cellsWith fun c => 0 < n c := by
    rw [countNonzero_cells f hs n hn (fun _ => True) (fun _ => True) (fun _ => Iff.rfl)]
    simp only [and_true]
  rw [hall] at h1 h2
  refine ⟨fun h => ?_, h2⟩
  obtain ⟨T, out, e, hT, hsh, ho⟩ := h1 h
  obtain ⟨hmem, _, hlt, hle⟩ := hT
  obtain ⟨c, hc, rfl⟩ := List.mem_map.1 hmem
  rw [hn] at hlt hle ho
  refine ⟨n c, out, e, ⟨?_, ?_⟩, hsh.trans hs, fun c' => ?_⟩
  · have h := countNonzero_cells f hs n hn (fun x => x < fin ((n c : ℕ) : K)) (fun k => k < n c) (fun k => by rw [F.lt_fin, Nat.cast_lt])
    exact h.symm.trans_le hlt
  · have h := countNonzero_cells f hs n hn (fun x => x ≤ fin ((n c : ℕ) : K)) (fun k => k ≤ n c) (fun k => by rw [F.le_fin, Nat.cast_le])
    exact hle.trans_eq h
  · obtain ⟨a, b⟩ := ho c'
    rw [hn] at a b
    by_cases hh : n c < n c'
    · rw [if_pos hh]; exact a ((F.lt_fin _ _).2 (Nat.cast_lt.2 hh))
    · rw [if_neg hh]; exact b (fun h => hh (Nat.cast_lt.1 ((F.lt_fin _ _).1 h)))

/-- The sum of the absolute differences of two masks. -/
theorem diff_masks [ExactArith K] (a b : Arr 3 (F K)) (ha : a.shape = hundred) (hb : b.shape = hundred) (P Q : CellId → Prop) [DecidablePred P] [DecidablePred Q]
    (hP : ∀ c, a.get c = if P c then 1 else 0) (hQ : ∀ c, b.get c = if Q c then 1 else 0) :
    ∃ d, Arr.zipWith (fun x y : F K => x - y) a b = .ok d ∧
      (flatten (d.map fun x => x.abs)).foldl (· + ·) 0 = (fin ((cellsWith fun c => ¬ (P c ↔ Q c) : ℕ) : K) : F K) := by
  obtain ⟨d, e, hs, hv⟩ := Arr.zipWith_same (fun x y : F K => x - y) a b (ha.trans hb.symm)
  refine ⟨d, e, ?_⟩
  have hform : flatten (d.map fun x => x.abs) = ((indices 3 hundred).map fun c => if ¬ (P c ↔ Q c) then (1 : K) else 0).map F.fin := by
    unfold flatten
    rw [List.map_map]
    have hsh : (d.map fun x : F K => x.abs).shape = hundred := hs.trans ha
    rw [hsh]
    apply List.map_congr_left
    intro c hc
    have hc' := (mem_indices _ _).1 hc
    change (d.get c).abs = _
    rw [hv c (by rw [ha]; exact hc'), hP, hQ]
    by_cases h1 : P c <;> by_cases h2 : Q c <;> simp [h1, h2, F.one_def, F.zero_def, F.esub, abs_fin]
  rw [hform]
  change List.foldl _ (fin 0) _ = _
  rw [foldl_fin, zero_add]
  congr 1
  rw [sum_indices, Finset.sum_boole]
  rfl

/-- What the search needs of a dataset: its file is well formed, with few enough samples to be counted exactly. -/
structure Comparable (d : Dm (Timestep K)) : Prop where
  inv : d.Inv
  wf : ∀ t, t < d.n → (d.file t).Wf
  few : (d.samples Selector.default).length ≤ 2 ^ 53

/-- The same file behind another state of the buffers. -/
structure SameFile (d d' : Dm (Timestep K)) : Prop where
  inv : d'.Inv
  file : d'.file = d.file
  n : d'.n = d.n

theorem SameFile.refl {d : Dm (Timestep K)} (h : d.Inv) : SameFile d d := ⟨h, rfl, rfl⟩

theorem SameFile.trans {a b c : Dm (Timestep K)} (h : SameFile a b) (h' : SameFile b c) : SameFile a c :=
  ⟨h'.inv, h'.file.trans h.file, h'.n.trans h.n⟩

theorem SameFile.samples {d d' : Dm (Timestep K)} (h : SameFile d d') (sel : Selector K) : d'.samples sel = d.samples sel := by
  unfold Dm.samples; rw [h.file, h.n]

theorem SameFile.comparable {d d' : Dm (Timestep K)} (h : SameFile d d') (hd : Comparable d) : Comparable d' :=
  ⟨h.inv, by rw [h.file, h.n]; exact hd.wf, by rw [h.samples]; exact hd.few⟩

theorem SameFile.visits {d d' : Dm (Timestep K)} (h : SameFile d d') (p : Profile) (g : Geom K) : visits p d' g = visits p d g := by
  funext c; unfold Up4.visits; rw [h.samples, h.file]

namespace Comparer

theorem cells_make (like : Geom K) (lim : Limits K) : (makeGrid like lim hundred).geom.cells = hundred := by
  cases like <;> rfl

theorem counted [LawfulArith K] (p : Profile) (d : Dm (Timestep K)) (hd : Comparable d) (like : Geom K) (lim : Limits K)
    (hf : (makeGrid like lim hundred).Fillable p) :
    ∃ d' g, numberfield p d (makeGrid like lim ![100, 100, 100]) Selector.default = .ok (d', g) ∧ SameFile d d' ∧ g.st.data.shape = hundred ∧
      ∀ c, g.st.data.get c = fin ((visits p d (makeGrid like lim hundred).geom c : ℕ) : K) := by
  obtain ⟨d', g, e, i, f, n, hgeo, hsh, hv, _⟩ := C34_numberfield p d hd.inv _ hf Selector.default (usable_default (K := K)) hd.wf hd.few
  exact ⟨d', g, e, ⟨i, f, n⟩, by rw [hsh.1, hgeo]; exact cells_make like lim, hv⟩

theorem threshold_unique {n : CellId → ℕ} {T T' : ℕ} (h : IsThreshold n T) (h' : IsThreshold n T') : T = T' := by
  unfold IsThreshold at h h'
  generalize 10000 = N at h h'
  have key : ∀ T T', (cellsWith (fun c => 0 < n c ∧ n c < T) ≤ N ∧ N < cellsWith (fun c => 0 < n c ∧ n c ≤ T)) →
      (cellsWith (fun c => 0 < n c ∧ n c < T') ≤ N ∧ N < cellsWith (fun c => 0 < n c ∧ n c ≤ T')) → ¬ T < T' := by
    intro T T' h h' hlt
    have hsub := cellsWith_mono (fun c => 0 < n c ∧ n c ≤ T) (fun c => 0 < n c ∧ n c < T') fun c hc => ⟨hc.1, lt_of_le_of_lt hc.2 hlt⟩
    exact absurd (h.2.trans_le (hsub.trans h'.1)) (lt_irrefl _)
  exact le_antisymm (not_lt.1 (key _ _ h' h)) (not_lt.1 (key _ _ h h'))

theorem mismatch_unique {n n2 : CellId → ℕ} {m m' : ℕ} (h : IsMismatch n n2 m) (h' : IsMismatch n n2 m') : m = m' := by
  obtain ⟨T, T2, a, b, e⟩ := h
  obtain ⟨U, U2, c, d, e'⟩ := h'
  rw [e, e', threshold_unique a c, threshold_unique b d]

/-- More than 10000 of the 100³ cells are visited. -/
def Enough (n : CellId → ℕ) : Prop := 10000 < cellsWith fun c => 0 < n c

/-- The visits of the first dataset to the grid moved by an offset, and of the second to its grid. -/
def moving (p : Profile) (c : Comparer K) (off : Fin 3 → F K) : CellId → ℕ :=
  visits p c.data (makeGrid c.grid.geom (moved (limits1 c.stats c.stats2) off) hundred).geom

/-- The visits of the second dataset to its grid. -/
def standing (p : Profile) (c : Comparer K) : CellId → ℕ :=
  visits p c.data2 (makeGrid c.grid.geom (limits2 c.stats c.stats2) hundred).geom

/-- Both grids of a step can be filled: their limits are in order. -/
structure Placed (p : Profile) (c : Comparer K) (off : Fin 3 → F K) : Prop where
  first : (makeGrid c.grid.geom (moved (limits1 c.stats c.stats2) off) hundred).Fillable p
  second : (makeGrid c.grid.geom (limits2 c.stats c.stats2) hundred).Fillable p

theorem step_ok [LawfulArith K] [ExactArith K] (p : Profile) (c : Comparer K) (h1 : Comparable c.data) (h2 : Comparable c.data2) (off : Fin 3 → F K)
    (hp : Placed p c off) (hm : Enough (moving p c off)) (hs : Enough (standing p c)) (s : Aligning K) (s1 : SameFile c.data s.data) (s2 : SameFile c.data2 s.data2) :
    ∃ (d d2 : Dm (Timestep K)) (m : ℕ), IsMismatch (moving p c off) (standing p c) m ∧ SameFile c.data d ∧ SameFile c.data2 d2 ∧
      alignStep p c.grid.geom (limits1 c.stats c.stats2) (limits2 c.stats c.stats2) s off =
        .ok ⟨d, d2, if (fin (m : K)) < s.old then fin (m : K) else s.old, if (fin (m : K)) < s.old then off else s.best,
          s.lines ++ [(if (fin (m : K)) < s.old then off else s.best, fin (m : K))]⟩ := by
  obtain ⟨d, g, e1, f1, sh1, v1⟩ := counted p s.data (s1.comparable h1) c.grid.geom (moved (limits1 c.stats c.stats2) off) hp.first
  obtain ⟨d2, g2, e2, f2, sh2, v2⟩ := counted p s.data2 (s2.comparable h2) c.grid.geom (limits2 c.stats c.stats2) hp.second
  rw [s1.visits] at v1
  rw [s2.visits] at v2
  obtain ⟨T, b, t1, t2, t3, t4⟩ := (threshold_counts g.st.data sh1 _ v1).1 hm
  obtain ⟨T2, b2, u1, u2, u3, u4⟩ := (threshold_counts g2.st.data sh2 _ v2).1 hs
  obtain ⟨dd, w1, w2⟩ := diff_masks b b2 t3 u3 _ _ t4 u4
  refine ⟨d, d2, _, ⟨T, T2, t2, u2, rfl⟩, s1.trans f1, s2.trans f2, ?_⟩
  unfold alignStep
  rw [e1, run_bind_ok, e2, run_bind_ok]
  dsimp only
  rw [t1, run_bind_ok, u1, run_bind_ok, w1, run_bind_ok, w2]
  rfl

/-- What the printed lines of a search say: one line for each offset, with its mismatch and one of the offsets tried so far with the least mismatch. -/
def Searched (mis : (Fin 3 → F K) → ℕ → Prop) (offs : List (Fin 3 → F K)) (lines : List ((Fin 3 → F K) × F K)) : Prop :=
  lines.length = offs.length ∧
  ∀ (k : ℕ) (off : Fin 3 → F K), offs[k]? = some off → ∃ (best : Fin 3 → F K) (m least : ℕ), lines[k]? = some (best, fin (m : K)) ∧ mis off m ∧
    best ∈ offs.take (k + 1) ∧ mis best least ∧ ∀ o ∈ offs.take (k + 1), ∀ m', mis o m' → least ≤ m'

theorem searched_snoc (mis : (Fin 3 → F K) → ℕ → Prop) (offs : List (Fin 3 → F K)) (lines : List ((Fin 3 → F K) × F K)) (h : Searched mis offs lines)
    (off best : Fin 3 → F K) (m least : ℕ) (hm : mis off m) (hb : best ∈ offs ++ [off]) (hl : mis best least)
    (hle : ∀ o ∈ offs ++ [off], ∀ m', mis o m' → least ≤ m') : Searched mis (offs ++ [off]) (lines ++ [(best, fin (m : K))]) := by
  refine ⟨by simp [h.1], fun k o hk => ?_⟩
  rcases lt_or_ge k offs.length with hlt | hge
  · rw [List.getElem?_append_left hlt] at hk
    obtain ⟨b, m', l', a1, a2, a3, a4, a5⟩ := h.2 k o hk
    have ht : (offs ++ [off]).take (k + 1) = offs.take (k + 1) := List.take_append_of_le_length (by omega)
    rw [ht, List.getElem?_append_left (by rw [h.1]; exact hlt)]
    exact ⟨b, m', l', a1, a2, a3, a4, a5⟩
  · rw [List.getElem?_append_right hge] at hk
    have hk0 : k = offs.length := by
      rcases Nat.eq_or_lt_of_le hge with e | e
      · exact e.symm
      · rw [List.getElem?_eq_none (by simp; omega)] at hk; cases hk
    subst hk0
    rw [Nat.sub_self] at hk
    obtain rfl : off = o := by simpa using hk
    have ht : (offs ++ [off]).take (offs.length + 1) = offs ++ [off] := List.take_of_length_le (by simp)
    rw [ht, List.getElem?_append_right (by rw [h.1]), h.1, Nat.sub_self]
    exact ⟨best, m, least, rfl, hm, hb, hl, hle⟩

theorem fin_lt_pinf (x : K) : (fin x : F K) < pinf := by
  exact rfl

/-- The state of the loops after some offsets. -/
def Sofar (p : Profile) (c : Comparer K) (offs : List (Fin 3 → F K)) (s : Aligning K) : Prop :=
  SameFile c.data s.data ∧ SameFile c.data2 s.data2 ∧
  Searched (fun o m => IsMismatch (moving p c o) (standing p c) m) offs s.lines ∧
  ((offs = [] ∧ s.old = pinf) ∨
    ∃ least : ℕ, s.old = fin (least : K) ∧ s.best ∈ offs ∧ IsMismatch (moving p c s.best) (standing p c) least ∧
      ∀ o ∈ offs, ∀ m', IsMismatch (moving p c o) (standing p c) m' → least ≤ m')

theorem sofar_step [LawfulArith K] [ExactArith K] (p : Profile) (c : Comparer K) (h1 : Comparable c.data) (h2 : Comparable c.data2) (off : Fin 3 → F K)
    (hp : Placed p c off) (hm : Enough (moving p c off)) (hs : Enough (standing p c)) (offs : List (Fin 3 → F K)) (s : Aligning K) (h : Sofar p c offs s) :
    ∃ s', alignStep p c.grid.geom (limits1 c.stats c.stats2) (limits2 c.stats c.stats2) s off = .ok s' ∧ Sofar p c (offs ++ [off]) s' := by
  obtain ⟨a1, a2, a3, a4⟩ := h
  obtain ⟨d, d2, m, hmis, g1, g2, e⟩ := step_ok p c h1 h2 off hp hm hs s a1 a2
  have hbest : ∃ least : ℕ, (if (fin (m : K)) < s.old then fin (m : K) else s.old) = fin (least : K) ∧
      (if (fin (m : K)) < s.old then off else s.best) ∈ offs ++ [off] ∧
      IsMismatch (moving p c (if (fin (m : K)) < s.old then off else s.best)) (standing p c) least ∧
      ∀ o ∈ offs ++ [off], ∀ m', IsMismatch (moving p c o) (standing p c) m' → least ≤ m' := by
    rcases a4 with ⟨rfl, ho⟩ | ⟨least, ho, hb, hl, hle⟩
    · rw [ho, if_pos (show (fin (m : K)) < (pinf : F K) from fin_lt_pinf _), if_pos (show (fin (m : K)) < (pinf : F K) from fin_lt_pinf _)]
      refine ⟨m, rfl, by simp, hmis, fun o hoo m' hm' => ?_⟩
      obtain rfl : o = off := by simpa using hoo
      exact (mismatch_unique hmis hm').le
    · rw [ho]
      by_cases hlt : (m : K) < (least : K)
      · rw [if_pos ((F.lt_fin _ _).2 hlt), if_pos ((F.lt_fin _ _).2 hlt)]
        refine ⟨m, rfl, by simp, hmis, fun o hoo m' hm' => ?_⟩
        rcases List.mem_append.1 hoo with h | h
        · exact (Nat.cast_lt.1 hlt).le.trans (hle o h m' hm')
        · obtain rfl : o = off := by simpa using h
          exact (mismatch_unique hmis hm').le
      · have hn : ¬ (fin (m : K) : F K) < fin (least : K) := fun h => hlt ((F.lt_fin _ _).1 h)
        rw [if_neg hn, if_neg hn]
        refine ⟨least, rfl, List.mem_append_left _ hb, hl, fun o hoo m' hm' => ?_⟩
        rcases List.mem_append.1 hoo with h | h
        · exact hle o h m' hm'
        · obtain rfl : o = off := by simpa using h
          rw [← mismatch_unique hmis hm']
          exact not_lt.1 fun hh => hlt (Nat.cast_lt.2 hh)
  obtain ⟨least, b1, b2, b3, b4⟩ := hbest
  exact ⟨_, e, g1, g2, searched_snoc _ offs s.lines a3 off _ m least hmis b2 b3 b4, Or.inr ⟨least, b1, b2, b3, b4⟩⟩

theorem sofar_all [LawfulArith K] [ExactArith K] (p : Profile) (c : Comparer K) (h1 : Comparable c.data) (h2 : Comparable c.data2)
    (hs : Enough (standing p c)) (rest : List (Fin 3 → F K)) (hp : ∀ off ∈ rest, Placed p c off) (hm : ∀ off ∈ rest, Enough (moving p c off))
    (offs : List (Fin 3 → F K)) (s : Aligning K) (h : Sofar p c offs s) :
    ∃ s', rest.foldlM (alignStep p c.grid.geom (limits1 c.stats c.stats2) (limits2 c.stats c.stats2)) s = .ok s' ∧ Sofar p c (offs ++ rest) s' := by
  induction rest generalizing offs s with
  | nil => exact ⟨s, rfl, by rw [List.append_nil]; exact h⟩
  | cons off rest ih =>
    obtain ⟨s', e, h'⟩ := sofar_step p c h1 h2 off (hp off List.mem_cons_self) (hm off List.mem_cons_self) hs offs s h
    obtain ⟨s'', e', h''⟩ := ih (fun o ho => hp o (List.mem_cons_of_mem _ ho)) (fun o ho => hm o (List.mem_cons_of_mem _ ho)) (offs ++ [off]) s' h'
    refine ⟨s'', ?_, ?_⟩
    · rw [List.foldlM_cons, e, run_bind_ok, e']
    · rwa [List.append_assoc] at h''

theorem hundred_ok : CellsOk hundred := by
  intro a; fin_cases a <;> exact ⟨by decide, by decide⟩

theorem placed_cart [LawfulArith K] (p : Profile) (c : Comparer K) (hc : ∃ g, c.grid.geom = .cart g) (off : Fin 3 → F K) : Placed p c off := by
  obtain ⟨g, hg⟩ := hc
  constructor
  · rw [hg]; exact fillable_cart p _ (isCart_new _ _ hundred_ok)
  · rw [hg]; exact fillable_cart p _ (isCart_new _ _ hundred_ok)

/-- The recorded limits of a dataset are these numbers. -/
def Spans (s : Stats K) (lo hi : Fin 3 → K) : Prop := s.dims = finLimits lo hi

theorem sizeOf_eq [ExactArith K] {s : Stats K} {lo hi : Fin 3 → K} (h : Spans s lo hi) (a : Fin 3) : sizeOf s a = fin (hi a - lo a) := by
  unfold sizeOf; rw [h]; exact F.esub _ _

/-- **C132, the offsets.** The offsets are the 100³ combinations of `-50 … 49` times a 200th of the size of the first dataset. -/
theorem _root_.Up4.C132_offsets [ExactArith K] {s : Stats K} {lo hi : Fin 3 → K} (h : Spans s lo hi) (off : Fin 3 → F K) :
    off ∈ offsets s ↔ ∃ i : Fin 3 → ℤ, (∀ a, -50 ≤ i a ∧ i a < 50) ∧ off = fun a => fin ((i a : K) * ((hi a - lo a) / 200)) := by
  have hmove : ∀ a, move s a = fin ((hi a - lo a) / 200) := by
    intro a
    unfold move
    rw [sizeOf_eq h, F.eofNat, F.eofNat, F.ediv _ (by norm_num), F.ediv _ (by norm_num)]
    congr 1; push_cast; ring
  have halong : ∀ a x, x ∈ along s a ↔ ∃ i : ℤ, (-50 ≤ i ∧ i < 50) ∧ x = fin ((i : K) * ((hi a - lo a) / 200)) := by
    intro a x
    unfold along
    rw [List.mem_map]
    constructor
    · rintro ⟨i, hi', rfl⟩
      refine ⟨(i : ℤ) - 50, ?_, ?_⟩
      · have := List.mem_range.1 hi'; omega
      · rw [hmove]; unfold ofInt; rw [ExactArith.rnd_eq, F.emul]
    · rintro ⟨i, hi', rfl⟩
      refine ⟨(i + 50).toNat, List.mem_range.2 (by omega), ?_⟩
      have : (((i + 50).toNat : ℕ) : ℤ) - 50 = i := by omega
      rw [this, hmove]; unfold ofInt; rw [ExactArith.rnd_eq, F.emul]
  unfold offsets
  simp only [List.mem_flatMap, List.mem_map, halong]
  constructor
  · rintro ⟨x, ⟨i, hi', rfl⟩, y, ⟨j, hj, rfl⟩, z, ⟨k, hk, rfl⟩, rfl⟩
    refine ⟨![i, j, k], ?_, ?_⟩
    · intro a; fin_cases a <;> assumption
    · funext a; fin_cases a <;> rfl
  · rintro ⟨i, hi', rfl⟩
    refine ⟨_, ⟨i 0, hi' 0, rfl⟩, _, ⟨i 1, hi' 1, rfl⟩, _, ⟨i 2, hi' 2, rfl⟩, ?_⟩
    funext a; fin_cases a <;> rfl

theorem length_offsets (s : Stats K) : (offsets s).length = 100 * (100 * 100) := by
  unfold offsets along
  simp [List.length_flatMap, Function.comp_def, List.map_const']

/-- **C132, the search.** If both datasets visit more than 10000 of the 100³ cells, the first at every offset, `align` answers; it prints one line for each offset, with the
number of cells that belong to the frequented cells of exactly one dataset, and with an offset for which that number is least among those tried so far. -/
theorem _root_.Up4.C132_search_partial [LawfulArith K] [ExactArith K] (p : Profile) (c : Comparer K) (h1 : Comparable c.data) (h2 : Comparable c.data2)
    (hs : Enough (standing p c)) (hp : ∀ off ∈ offsets c.stats, Placed p c off) (hm : ∀ off ∈ offsets c.stats, Enough (moving p c off)) :
    ∃ c' lines, align p c = .ok (c', lines) ∧ Searched (fun o m => IsMismatch (moving p c o) (standing p c) m) (offsets c.stats) lines ∧
      SameFile c.data c'.data ∧ SameFile c.data2 c'.data2 := by
  obtain ⟨s', e, a1, a2, a3, _⟩ := sofar_all p c h1 h2 hs (offsets c.stats) hp hm [] ⟨c.data, c.data2, pinf, fun _ => 0, []⟩
    ⟨SameFile.refl h1.inv, SameFile.refl h2.inv, ⟨rfl, fun k off h => by simp at h⟩, Or.inl ⟨rfl, rfl⟩⟩
  refine ⟨{ c with data := s'.data, data2 := s'.data2 }, s'.lines, ?_, a3, a1, a2⟩
  unfold align
  rw [e, run_bind_ok]
  rfl

/-- **C132 is false of the code**: whatever the search finds, the comparer keeps its two grids and is still marked as not aligned. -/
theorem _root_.Up4.C132_kept_false (p : Profile) (data data2 : Dm (Timestep K)) (stats stats2 : Stats K) (grid : Grid K) (c' : Comparer K)
    (lines : List ((Fin 3 → F K) × F K)) (h : align p (compare data stats data2 stats2 grid) = .ok (c', lines)) :
    c'.grid = grid ∧ c'.grid2 = grid ∧ c'.aligned = false ∧ c'.stats = stats ∧ c'.stats2 = stats2 := by
  unfold align at h
  obtain ⟨s, _, e⟩ := run_bind_inv h
  cases e
  exact ⟨rfl, rfl, rfl, rfl, rfl⟩

theorem step_few [LawfulArith K] [ExactArith K] (p : Profile) (c : Comparer K) (h1 : Comparable c.data) (h2 : Comparable c.data2) (off : Fin 3 → F K)
    (hp : Placed p c off) (h : ¬ (Enough (moving p c off) ∧ Enough (standing p c))) (s : Aligning K) (s1 : SameFile c.data s.data) (s2 : SameFile c.data2 s.data2) :
    alignStep p c.grid.geom (limits1 c.stats c.stats2) (limits2 c.stats c.stats2) s off = .error .unwrap := by
  obtain ⟨d, g, e1, f1, sh1, v1⟩ := counted p s.data (s1.comparable h1) c.grid.geom (moved (limits1 c.stats c.stats2) off) hp.first
  obtain ⟨d2, g2, e2, f2, sh2, v2⟩ := counted p s.data2 (s2.comparable h2) c.grid.geom (limits2 c.stats c.stats2) hp.second
  rw [s1.visits] at v1
  rw [s2.visits] at v2
  unfold alignStep
  rw [e1, run_bind_ok, e2, run_bind_ok]
  dsimp only
  by_cases hm : Enough (moving p c off)
  · obtain ⟨T, b, t1, _⟩ := (threshold_counts g.st.data sh1 _ v1).1 hm
    have hs : ¬ Enough (standing p c) := fun hs => h ⟨hm, hs⟩
    rw [t1, run_bind_ok, (threshold_counts g2.st.data sh2 _ v2).2 (not_lt.1 hs), run_bind_error]
  · rw [(threshold_counts g.st.data sh1 _ v1).2 (not_lt.1 hm), run_bind_error]

/-- **C132, too few visited cells.** If the second dataset visits at most 10000 of the 100³ cells, or the first does at some offset, `align` panics. -/
theorem _root_.Up4.C132_few [LawfulArith K] [ExactArith K] (p : Profile) (c : Comparer K) (h1 : Comparable c.data) (h2 : Comparable c.data2)
    (hp : ∀ off ∈ offsets c.stats, Placed p c off) (h : ∃ off ∈ offsets c.stats, ¬ (Enough (moving p c off) ∧ Enough (standing p c))) :
    align p c = .error .unwrap := by
  have key : ∀ (l : List (Fin 3 → F K)), (∀ off ∈ l, Placed p c off) → (∃ off ∈ l, ¬ (Enough (moving p c off) ∧ Enough (standing p c))) →
      ∀ (offs : List (Fin 3 → F K)) (s : Aligning K), Sofar p c offs s →
      l.foldlM (alignStep p c.grid.geom (limits1 c.stats c.stats2) (limits2 c.stats c.stats2)) s = .error .unwrap := by
    intro l
    induction l with
    | nil => rintro _ ⟨o, ho, _⟩; simp at ho
    | cons off l ih =>
      intro hp hex offs s hs
      rw [List.foldlM_cons]
      by_cases hgood : Enough (moving p c off) ∧ Enough (standing p c)
      · obtain ⟨s', e, hs'⟩ := sofar_step p c h1 h2 off (hp off List.mem_cons_self) hgood.1 hgood.2 offs s hs
        rw [e, run_bind_ok]
        refine ih (fun o ho => hp o (List.mem_cons_of_mem _ ho)) ?_ _ s' hs'
        obtain ⟨o, ho, hbad⟩ := hex
        rcases List.mem_cons.1 ho with rfl | ho
        · exact absurd hgood hbad
        · exact ⟨o, ho, hbad⟩
      · rw [step_few p c h1 h2 off (hp off List.mem_cons_self) hgood s hs.1 hs.2.1, run_bind_error]
  unfold align
  rw [key _ hp h [] _ ⟨SameFile.refl h1.inv, SameFile.refl h2.inv, ⟨rfl, fun k off h => by simp at h⟩, Or.inl ⟨rfl, rfl⟩⟩, run_bind_error]

theorem limits_same [ExactArith K] {s s2 : Stats K} {lo hi lo2 hi2 : Fin 3 → K} (h : Spans s lo hi) (h2 : Spans s2 lo2 hi2) (k : K)
    (hk : adjustment (sizeOf s 0) (sizeOf s2 0) = fin k) :
    limits1 s s2 = finLimits lo (fun a => lo a + max (hi a - lo a) ((hi2 a - lo2 a) * k)) ∧
    limits2 s s2 = finLimits lo2 (fun a => lo2 a + max (hi a - lo a) ((hi2 a - lo2 a) * k) * k) := by
  have hcom : ∀ a, common s s2 a = fin (max (hi a - lo a) ((hi2 a - lo2 a) * k)) := by
    intro a
    unfold common
    rw [hk, sizeOf_eq h, sizeOf_eq h2, F.emul]
    unfold fmax
    rw [if_neg (by simp [F.isNaN]), if_neg (by simp [F.isNaN])]
    by_cases hlt : hi a - lo a < (hi2 a - lo2 a) * k
    · rw [if_pos ((F.lt_fin _ _).2 hlt), max_eq_right hlt.le]
    · rw [if_neg (fun h => hlt ((F.lt_fin _ _).1 h)), max_eq_left (not_lt.1 hlt)]
  constructor
  · funext a
    unfold limits1
    rw [hcom, h]
    exact Prod.ext rfl (F.eadd _ _)
  · funext a
    unfold limits2
    rw [hcom, h2, hk, F.emul]
    exact Prod.ext rfl (F.eadd _ _)

theorem adjustment_same [ExactArith K] {a b : K} (ha : 0 < a) (hb : 0 < b) (h1 : a / b ≤ 800) (h2 : b / a ≤ 800) :
    adjustment (fin a) (fin b) = (fin 1 : F K) := by
  unfold adjustment
  rw [F.ediv _ hb.ne', F.ediv _ ha.ne', F.eofNat, F.eofNat, F.eofNat]
  have g1 : ¬ (fin ((800 : ℕ) : K) : F K) < fin (a / b) := fun h => by
    have := (F.lt_fin _ _).1 h; push_cast at this; linarith
  have g2 : ¬ (fin ((800 : ℕ) : K) : F K) < fin (b / a) := fun h => by
    have := (F.lt_fin _ _).1 h; push_cast at this; linarith
  rw [if_neg g1, if_neg g2, Nat.cast_one]

/-- **C132, the same unit.** If the sizes along x differ by a factor of at most 800, both grids cover boxes of one size: along each axis the greater of the two sizes; the
first starts at the lower limits of the first dataset (plus the offset), the second at those of the second. -/
theorem _root_.Up4.C132_grids [ExactArith K] {s s2 : Stats K} {lo hi lo2 hi2 : Fin 3 → K} (h : Spans s lo hi) (h2 : Spans s2 lo2 hi2) (hx : lo 0 < hi 0) (hx2 : lo2 0 < hi2 0)
    (hr : hi 0 - lo 0 ≤ 800 * (hi2 0 - lo2 0)) (hr2 : hi2 0 - lo2 0 ≤ 800 * (hi 0 - lo 0)) :
    limits1 s s2 = finLimits lo (fun a => lo a + max (hi a - lo a) (hi2 a - lo2 a)) ∧
    limits2 s s2 = finLimits lo2 (fun a => lo2 a + max (hi a - lo a) (hi2 a - lo2 a)) := by
  have hd := sub_pos.2 hx
  have hd2 := sub_pos.2 hx2
  obtain ⟨a, b⟩ := limits_same h h2 1 (by
    rw [sizeOf_eq h, sizeOf_eq h2]
    exact adjustment_same hd hd2 (by rw [div_le_iff₀ hd2]; exact hr) (by rw [div_le_iff₀ hd]; exact hr2))
  rw [a, b]
  simp only [mul_one, and_self]

theorem no_mismatch {n : CellId → ℕ} {m : ℕ} (hm : IsMismatch n n m) : m = 0 := by
  obtain ⟨T, T2, a, b, e⟩ := hm
  rw [e, threshold_unique a b]
  unfold cellsWith
  rw [Finset.card_eq_zero, Finset.filter_eq_empty_iff]
  intro c _ hh
  exact hh Iff.rfl

/-- **C132, a dataset against itself.** The best offset after the last line has mismatch 0: the same cells are frequented. -/
theorem _root_.Up4.C132_self [LawfulArith K] [ExactArith K] (p : Profile) (c : Comparer K) (h1 : Comparable c.data) (hsame : SameFile c.data c.data2) (hstats : c.stats2 = c.stats)
    {lo hi : Fin 3 → K} (hspan : Spans c.stats lo hi) (hx : lo 0 < hi 0) (hp : ∀ off ∈ offsets c.stats, Placed p c off)
    (hm : ∀ off ∈ offsets c.stats, Enough (moving p c off)) :
    ∃ c' lines best diff, align p c = .ok (c', lines) ∧ lines.getLast? = some (best, diff) ∧ best ∈ offsets c.stats ∧
      IsMismatch (moving p c best) (standing p c) 0 := by
  have h2 : Comparable c.data2 := hsame.comparable h1
  have hspan2 : Spans c.stats2 lo hi := by rw [hstats]; exact hspan
  have hd := sub_pos.2 hx
  obtain ⟨l1, l2⟩ := C132_grids hspan hspan2 hx hx (by linarith) (by linarith)
  have hzero : (fun _ => fin 0 : Fin 3 → F K) ∈ offsets c.stats := by
    rw [C132_offsets hspan]
    exact ⟨fun _ => 0, fun _ => by norm_num, by funext a; simp⟩
  have hstand : standing p c = moving p c fun _ => fin 0 := by
    unfold standing moving
    rw [hsame.visits, l1, l2]
    congr 3
    funext a
    unfold moved finLimits
    rw [F.eadd, F.eadd, add_zero, add_zero]
  have hs : Enough (standing p c) := by rw [hstand]; exact hm _ hzero
  obtain ⟨c', lines, e, hsearch, _, _⟩ := C132_search_partial p c h1 h2 hs hp hm
  have hne : offsets c.stats ≠ [] := List.ne_nil_of_mem hzero
  have hpos := List.length_pos_of_ne_nil hne
  obtain ⟨best, m, least, a1, a2, a3, a4, a5⟩ := hsearch.2 ((offsets c.stats).length - 1) _ (List.getElem?_eq_getElem (by omega))
  have ht : (offsets c.stats).take ((offsets c.stats).length - 1 + 1) = offsets c.stats := List.take_of_length_le (by omega)
  rw [ht] at a3 a5
  refine ⟨c', lines, best, fin (m : K), e, ?_, a3, ?_⟩
  · rw [List.getLast?_eq_getElem?, hsearch.1]; exact a1
  · obtain ⟨T, b, _, t2, _⟩ := (threshold_counts (K := K) ⟨hundred, fun c' => fin ((standing p c c' : ℕ) : K)⟩ rfl (standing p c) (fun _ => rfl)).1 hs
    have hmis : IsMismatch (moving p c fun _ => fin 0) (standing p c) (cellsWith fun c' => ¬ (T < moving p c (fun _ => fin 0) c' ↔ T < standing p c c')) :=
      ⟨T, T, by rw [← hstand]; exact t2, t2, rfl⟩
    have h0 := a5 _ hzero _ hmis
    rw [← hstand] at hmis h0
    rw [no_mismatch hmis] at h0
    rw [Nat.le_zero.1 h0] at a4
    exact a4

theorem one_cell (P : CellId → Prop) [DecidablePred P] (h : ∀ c, P c → c = fun _ => 0) : cellsWith P ≤ 1 := by
  unfold cellsWith
  generalize cellsOf hundred = s
  rw [Finset.card_le_one]
  intro a ha b hb
  rw [h a (Finset.mem_filter.1 ha).2, h b (Finset.mem_filter.1 hb).2]

theorem few_lt : ¬ 10000 < 1 := by omega

/-- **C132 is false of the code for datasets in different units.** If the first dataset is more than 800 times as large along x as the second (millimetres against metres),
the grid of the second is at least a million times as large as the second dataset itself: on a Cartesian grid all its particles fall in one cell and `align` panics,
whatever the datasets contain. -/
theorem _root_.Up4.C132_units_false [LawfulArith K] [ExactArith K] (p : Profile) (c : Comparer K) (h1 : Comparable c.data) (h2 : Comparable c.data2) (hg : ∃ g, c.grid.geom = .cart g)
    {lo hi lo2 hi2 : Fin 3 → K} (h : Spans c.stats lo hi) (h' : Spans c.stats2 lo2 hi2) (hpos : ∀ a, lo2 a < hi2 a)
    (hunit : 800 * (hi2 0 - lo2 0) < hi 0 - lo 0)
    (hin : ∀ x ∈ c.data2.samples Selector.default, ∃ y, posOf c.data2.file x = finPos y ∧ ∀ a, lo2 a ≤ y a ∧ y a ≤ hi2 a) :
    (∀ a, ∃ w, limits2 c.stats c.stats2 a = (fin (lo2 a), fin (lo2 a + w)) ∧ 1000000 * (hi2 a - lo2 a) ≤ w) ∧ align p c = .error .unwrap := by
  have hadj : adjustment (sizeOf c.stats 0) (sizeOf c.stats2 0) = fin 1000 := by
    have hd2 := sub_pos.2 (hpos 0)
    rw [sizeOf_eq h, sizeOf_eq h']
    unfold adjustment
    rw [F.ediv _ hd2.ne', F.eofNat, F.eofNat, if_pos]
    · push_cast; rfl
    · change fin _ < fin _
      rw [F.lt_fin, lt_div_iff₀ hd2]
      push_cast
      exact hunit
  have hl2 := (limits_same h h' 1000 hadj).2
  have hw : ∀ a, 1000000 * (hi2 a - lo2 a) ≤ max (hi a - lo a) ((hi2 a - lo2 a) * 1000) * 1000 := by
    intro a
    have := le_max_right (hi a - lo a) ((hi2 a - lo2 a) * 1000)
    linarith
  refine ⟨fun a => ⟨_, by rw [hl2]; rfl, hw a⟩, ?_⟩
  have hstand : ∀ cell, 0 < standing p c cell → cell = fun _ => 0 := by
    intro cell hc
    unfold standing visits at hc
    rw [List.countP_pos_iff] at hc
    obtain ⟨x, hx, hcell⟩ := hc
    obtain ⟨y, hy, hbox⟩ := hin x hx
    obtain ⟨g, hg⟩ := hg
    rw [hg, hl2, hy] at hcell
    have hwide : ∀ a, lo2 a < lo2 a + max (hi a - lo a) ((hi2 a - lo2 a) * 1000) * 1000 := by
      intro a
      have := hw a
      have := hpos a
      linarith
    obtain ⟨y', e, hcell⟩ := (cart_inCell p hundred hundred_ok lo2 _ hwide _ _).1 hcell
    funext a
    obtain ⟨b1, b2, b3⟩ := hcell a
    have hy' : y' a = y a := by
      have := congrFun e a
      unfold finPos at this
      exact (F.fin.inj this).symm
    rw [b3, Nat.floor_eq_zero]
    have h99 : ((hundred a - 1 : ℕ) : K) = 99 := by
      have : hundred a - 1 = 99 := by fin_cases a <;> rfl
      rw [this]; norm_num
    have hpa := sub_pos.2 (hpos a)
    have := hw a
    rw [h99, add_sub_cancel_left, hy', div_mul_eq_mul_div, div_lt_one (by linarith)]
    have := (hbox a).2
    linarith
  apply C132_few p c h1 h2 (fun off _ => placed_cart p c hg off)
  have hmem : (fun a => fin (((0 : ℤ) : K) * ((hi a - lo a) / 200)) : Fin 3 → F K) ∈ offsets c.stats :=
    (C132_offsets h _).2 ⟨fun _ => 0, fun _ => by norm_num, rfl⟩
  refine ⟨_, hmem, fun hh => ?_⟩
  have hle := one_cell _ hstand
  have := hh.2
  unfold Enough at this
  exact few_lt (this.trans_le hle)

/-- **C132, the kind of grid.** Both grids of every step are of the kind of the grid that was given: the visits are counted in the cells of a Cartesian grid for a
Cartesian grid and in those of a cylindrical grid for a cylindrical one, with the limits of the step and 100 cells along each axis. -/
theorem _root_.Up4.C132_kind (p : Profile) (c : Comparer K) (off : Fin 3 → F K) :
    ((∃ g, c.grid.geom = .cart g) →
      moving p c off = visits p c.data (Grid.newCart (fun _ => 100) (moved (limits1 c.stats c.stats2) off)).geom ∧
      standing p c = visits p c.data2 (Grid.newCart (fun _ => 100) (limits2 c.stats c.stats2)).geom) ∧
    ((∃ g, c.grid.geom = .cyl g) →
      moving p c off = visits p c.data (Grid.newCyl (fun _ => 100) (moved (limits1 c.stats c.stats2) off)).geom ∧
      standing p c = visits p c.data2 (Grid.newCyl (fun _ => 100) (limits2 c.stats c.stats2)).geom) := by
  have h100 : (hundred : CellId) = fun _ => 100 := by funext a; fin_cases a <;> rfl
  constructor
  all_goals
    rintro ⟨g, hg⟩
    unfold moving standing makeGrid
    rw [hg, h100]
    exact ⟨rfl, rfl⟩

/-- Case for `C132_kind`: a cylindrical grid of any size. -/
example (p : Profile) (c : Comparer ℝ) (h : c.grid = Grid.newCyl (fun _ => 5) (finLimits (fun _ => 0) fun _ => 1)) :
    standing p c = visits p c.data2 (Grid.newCyl (fun _ => 100) (limits2 c.stats c.stats2)).geom :=
  ((C132_kind p c fun _ => fin 0).2 ⟨_, by rw [h]; rfl⟩).2

/-- **C132 is false of the code for datasets in different units, the other way round.** If the second dataset is more than 800 times as large along x as the first (metres
against millimetres), its size is divided by a thousand twice: the grid of the second dataset covers less than an 800000th of its size along x, so that only the particles
in one corner of the second dataset are compared. -/
theorem _root_.Up4.C132_small_false [ExactArith K] {s s2 : Stats K} {lo hi lo2 hi2 : Fin 3 → K} (h : Spans s lo hi) (h2 : Spans s2 lo2 hi2) (hx : lo 0 < hi 0)
    (hx2 : lo2 0 < hi2 0) (hunit : 800 * (hi 0 - lo 0) < hi2 0 - lo2 0) :
    limits1 s s2 = finLimits lo (fun a => lo a + max (hi a - lo a) ((hi2 a - lo2 a) / 1000)) ∧
    limits2 s s2 = finLimits lo2 (fun a => lo2 a + max (hi a - lo a) ((hi2 a - lo2 a) / 1000) / 1000) ∧
    max (hi 0 - lo 0) ((hi2 0 - lo2 0) / 1000) / 1000 < (hi2 0 - lo2 0) / 800000 := by
  have hd := sub_pos.2 hx
  have hd2 := sub_pos.2 hx2
  have hadj : adjustment (sizeOf s 0) (sizeOf s2 0) = fin (1 / 1000) := by
    rw [sizeOf_eq h, sizeOf_eq h2]
    unfold adjustment
    rw [F.ediv _ hd2.ne', F.ediv _ hd.ne', F.eofNat, F.eofNat, F.eofNat, if_neg, if_pos, F.ediv _ (by norm_num)]
    · push_cast; rfl
    · change fin _ < fin _
      rw [F.lt_fin, lt_div_iff₀ hd]
      push_cast
      exact hunit
    · intro hh
      change fin _ < fin _ at hh
      rw [F.lt_fin, lt_div_iff₀ hd2] at hh
      push_cast at hh
      linarith
  obtain ⟨a, b⟩ := limits_same h h2 (1 / 1000) hadj
  refine ⟨?_, ?_, ?_⟩
  · rw [a]
    simp only [mul_one_div]
  · rw [b]
    simp only [mul_one_div]
  · rw [div_lt_div_iff₀ (by norm_num) (by norm_num)]
    rcases max_choice (hi 0 - lo 0) ((hi2 0 - lo2 0) / 1000) with e | e <;> rw [e] <;> linarith

/-- Case for `C132_small_false`: a box of a metre, and the same box in millimetres: its grid is a millimetre wide. -/
example (s s2 : Stats ℝ) (h : Spans s (fun _ => 0) fun _ => 1) (h2 : Spans s2 (fun _ => 0) fun _ => 1000) :
    limits2 s s2 = finLimits (fun _ => 0) fun _ => 1 / 1000 := by
  rw [(C132_small_false h h2 (by norm_num) (by norm_num) (by norm_num)).2.1]
  norm_num

/-- **C132, the two fields.** In a comparer that has just been made, the velocity fields of the two datasets are those `velocityfield` gives for each dataset alone on the
grid given, with the default selection: the values of corresponding cells are at the same place of the two lists. -/
theorem _root_.Up4.C132_fields [LawfulArith K] (p : Profile) (data data2 : Dm (Timestep K)) (h1 : Comparable data) (h2 : Comparable data2) (stats stats2 : Stats K)
    (grid : Grid K) (hg : grid.Fillable p) (mode : String) (vcal : (Fin 3 → F K) → F K) (hm : velMode mode = .ok vcal) (lo hi : F K) (hlo : lo ≠ F.nan) (hhi : hi ≠ F.nan) :
    ∃ d1 g1 d2 g2 c', velocityfield p data grid Selector.default mode lo hi = .ok (d1, g1) ∧ velocityfield p data2 grid Selector.default mode lo hi = .ok (d2, g2) ∧
      velocityfields p (compare data stats data2 stats2 grid) mode lo hi = .ok (c', flatten g1.st.data, flatten g2.st.data) ∧
      SameFile data c'.data ∧ SameFile data2 c'.data2 := by
  obtain ⟨d1, g1, r1, i1, f1, n1, -⟩ := velocityfield_run p data h1.inv grid hg Selector.default usable_default h1.wf mode vcal hm lo hi hlo hhi
  obtain ⟨d2, g2, r2, i2, f2, n2, -⟩ := velocityfield_run p data2 h2.inv grid hg Selector.default usable_default h2.wf mode vcal hm lo hi hlo hhi
  refine ⟨d1, g1, d2, g2, { compare data stats data2 stats2 grid with data := d1, data2 := d2 }, r1, r2, ?_, ⟨i1, f1, n1⟩, ⟨i2, f2, n2⟩⟩
  unfold velocityfields compare
  dsimp only
  rw [r1, run_bind_ok, r2, run_bind_ok]
  rfl

end Comparer

/-! ### A case: a million particles on the points of a lattice -/

/-- The points with whole coordinates in `[0, 99]³`. -/
noncomputable def latticePoints : List (Fin 3 → F ℝ) := (indices 3 hundred).map fun c a => fin (c a : ℝ)

/-- One timestep with a particle at rest on each point. -/
noncomputable def latticeStep : Timestep ℝ :=
  ⟨fin 0, latticePoints, latticePoints.map fun _ _ => fin 0, latticePoints.map fun _ => fin 1, latticePoints.map fun _ => fin 1, latticePoints.map fun _ => fin 0,
    latticePoints.map fun _ => fin 0, latticePoints.map fun _ => fin 0⟩

/-- The recording with that timestep alone. -/
structure IsLattice (d : Dm (Timestep ℝ)) : Prop where
  inv : d.Inv
  file : d.file = fun _ => latticeStep
  n : d.n = 1

theorem lattice_new (p : Profile) (kind : Kind) : ∃ d, Dm.new p kind (fun _ => latticeStep) 1 Timestep.default = .ok d ∧ IsLattice d := by
  obtain ⟨d, e, hi, hf, hn, _⟩ := Dm.new_ok p kind (fun _ => latticeStep) 1 Timestep.default (by norm_num) (by norm_num)
  exact ⟨d, e, hi, hf, hn⟩

theorem length_lattice : latticePoints.length = 1000000 := by
  unfold latticePoints
  rw [List.length_map, length_indices]
  simp [hundred, Fin.prod_univ_three]

theorem lattice_comparable {d : Dm (Timestep ℝ)} (h : IsLattice d) : Comparable d := by
  refine ⟨h.inv, fun t _ => ?_, ?_⟩
  · rw [h.file]
    refine ⟨?_, ?_, ?_, ?_, ?_, ?_⟩ <;> simp only [latticeStep, List.length_map]
  · unfold Dm.samples
    rw [h.file, h.n]
    unfold samples
    rw [List.range_one, List.flatMap_singleton, List.length_map]
    unfold Timestep.picks
    split
    · have h1 := List.length_filter_le (latticeStep.chosen Selector.default) (List.range latticeStep.position.length)
      rw [List.length_range] at h1
      have h2 : latticeStep.position.length ≤ 2 ^ 53 := by
        change latticePoints.length ≤ _
        rw [length_lattice]
        norm_num
      exact h1.trans h2
    · simp

/-- Statistics with the limits `[0, 99]³`. -/
noncomputable def latticeStats : Stats ℝ := ⟨finLimits (fun _ => 0) (fun _ => 99), 1000000, [fin 0], fun _ => fin 0⟩

/-- The comparer of the lattice with itself on a Cartesian grid. -/
noncomputable def latticeComparer (d : Dm (Timestep ℝ)) : Comparer ℝ :=
  Comparer.compare d latticeStats d latticeStats (Grid.newCart hundred (finLimits (fun _ => 0) (fun _ => 99)))

theorem lattice_time : (Selector.default : Selector ℝ).timestepValid latticeStep.time = true := by
  have h := LawfulArith.max_pos (K := ℝ)
  unfold Selector.timestepValid
  simp only [Selector.default, latticeStep, Bool.and_eq_true, decide_eq_true_eq, ge_iff_le, F.le_fin]
  constructor <;> linarith

theorem lattice_seen (p : Profile) {d : Dm (Timestep ℝ)} (h : IsLattice d) (lo hi : Fin 3 → ℝ) (hlt : ∀ a, lo a < hi a) (x : CellId) (hx : InB hundred x)
    (hin : ∀ a, lo a ≤ x a ∧ (x a : ℝ) ≤ hi a) :
    0 < visits p d (Grid.newCart hundred (finLimits lo hi)).geom fun a => ⌊((x a : ℝ) - lo a) / (hi a - lo a) * 99⌋₊ := by
  unfold visits
  rw [List.countP_pos_iff]
  obtain ⟨i, hi', hget⟩ := List.getElem_of_mem ((mem_indices _ _).2 hx)
  refine ⟨(0, i), ?_, ?_⟩
  · unfold Dm.samples
    rw [h.file, h.n, mem_samples]
    refine ⟨by simp, lattice_time, ?_, chosen_default _ _⟩
    change i < latticePoints.length
    unfold latticePoints
    rw [List.length_map]
    exact hi'
  · have hpos : posOf d.file (0, i) = finPos fun a => (x a : ℝ) := by
      rw [h.file]
      change latticePoints.getD i _ = _
      unfold latticePoints
      rw [List.getD_eq_getElem?_getD, List.getElem?_map, List.getElem?_eq_getElem hi', hget]
      rfl
    rw [hpos]
    refine (cart_inCell p hundred Comparer.hundred_ok lo hi hlt _ _).2 ⟨_, rfl, fun a => ⟨(hin a).1, (hin a).2, ?_⟩⟩
    have : hundred a - 1 = 99 := by fin_cases a <;> rfl
    rw [this]
    norm_num

theorem hundred_eq (a : Fin 3) : hundred a = 100 := by fin_cases a <;> rfl

theorem many_in (s : CellId) (P : CellId → Prop) [DecidablePred P] (B : Finset CellId) (f : CellId → CellId) (hf : ∀ x ∈ B, InB s (f x) ∧ P (f x))
    (hinj : ∀ x ∈ B, ∀ y ∈ B, f x = f y → x = y) : B.card ≤ ((cellsOf s).filter P).card := by
  apply Finset.card_le_card_of_injOn f
  · intro x hx
    rw [Finset.mem_coe, Finset.mem_filter]
    exact ⟨(mem_cellsOf s _).2 (hf x (Finset.mem_coe.1 hx)).1, (hf x (Finset.mem_coe.1 hx)).2⟩
  · intro x hx y hy hxy
    exact hinj x (Finset.mem_coe.1 hx) y (Finset.mem_coe.1 hy) hxy

theorem many_cells (P : CellId → Prop) [DecidablePred P] (B : Finset CellId) (f : CellId → CellId) (hf : ∀ x ∈ B, InB hundred (f x) ∧ P (f x))
    (hinj : ∀ x ∈ B, ∀ y ∈ B, f x = f y → x = y) : B.card ≤ cellsWith P := many_in hundred P B f hf hinj

theorem box_cells (l u : ℕ) : ∃ B : Finset CellId, B.card = (u - l) ^ 3 ∧ ∀ x ∈ B, ∀ a, l ≤ x a ∧ x a < u := by
  refine ⟨Fintype.piFinset fun _ : Fin 3 => Finset.Ico l u, ?_, fun x hx a => Finset.mem_Ico.1 (Fintype.mem_piFinset.1 hx a)⟩
  rw [Fintype.card_piFinset]
  simp

theorem lattice_enough (p : Profile) {d : Dm (Timestep ℝ)} (h : IsLattice d) (off : Fin 3 → F ℝ) (hoff : off ∈ Comparer.offsets latticeStats) :
    Comparer.Enough (Comparer.moving p (latticeComparer d) off) := by
  have hspan : Comparer.Spans latticeStats (fun _ => 0) (fun _ => 99) := rfl
  obtain ⟨B, hBc, hB⟩ := box_cells 25 75
  obtain ⟨i, hi, rfl⟩ := (C132_offsets hspan off).1 hoff
  have hb : ∀ a, -(99 / 4) ≤ (i a : ℝ) * ((99 - 0) / 200) ∧ (i a : ℝ) * ((99 - 0) / 200) ≤ 99 / 4 := by
    intro a
    obtain ⟨h1, h2⟩ := hi a
    have h1' : (-50 : ℝ) ≤ i a := by exact_mod_cast h1
    have h2' : (i a : ℝ) ≤ 50 := by exact_mod_cast h2.le
    constructor <;> linarith
  have hgeo : Comparer.moving p (latticeComparer d) (fun a => fin ((i a : ℝ) * ((99 - 0) / 200))) =
      visits p d (Grid.newCart hundred (finLimits (fun a => (i a : ℝ) * ((99 - 0) / 200)) (fun a => 99 + (i a : ℝ) * ((99 - 0) / 200)))).geom := by
    unfold Comparer.moving
    have hl := (C132_grids hspan hspan (by norm_num) (by norm_num) (by norm_num) (by norm_num)).1
    change visits p d (Grid.newCart hundred (Comparer.moved (Comparer.limits1 latticeStats latticeStats) _)).geom = _
    rw [hl]
    congr 3
    funext a
    unfold Comparer.moved finLimits
    rw [F.eadd, F.eadd]
    norm_num
  rw [hgeo]
  generalize ho : (fun a => (i a : ℝ) * ((99 - 0) / 200)) = o at *
  have ho' : ∀ a, (i a : ℝ) * ((99 - 0) / 200) = o a := fun a => congrFun ho a
  simp only [ho'] at hb ⊢
  have hfloor : ∀ (x : CellId) (a : Fin 3), ⌊((x a : ℝ) - o a) / (99 + o a - o a) * 99⌋₊ = ⌊(x a : ℝ) - o a⌋₊ := by
    intro x a
    congr 1
    rw [add_sub_cancel_right]
    ring
  have hcard : B.card ≤ cellsWith fun c => 0 < visits p d (Grid.newCart hundred (finLimits o (fun a => 99 + o a))).geom c := by
    have hbox : ∀ x ∈ B, ∀ a, (25 : ℝ) ≤ x a ∧ (x a : ℝ) ≤ 74 := by
      intro x hx a
      have := hB x hx a
      constructor
      · exact_mod_cast this.1
      · exact_mod_cast (by omega : x a ≤ 74)
    apply many_cells _ B (fun x a => ⌊(x a : ℝ) - o a⌋₊)
    · intro x hx
      have hx' := hbox x hx
      constructor
      · intro a
        rw [hundred_eq]
        change ⌊(x a : ℝ) - o a⌋₊ < 100
        rw [Nat.floor_lt' (by norm_num)]
        have := hx' a
        have := hb a
        push_cast
        linarith
      · have hseen := lattice_seen p h o (fun a => 99 + o a) (fun a => by linarith) x (fun a => by
          rw [hundred_eq]
          have := hB x hx a
          omega) (fun a => by
            have := hx' a
            have := hb a
            constructor <;> linarith)
        simp only [hfloor] at hseen
        exact hseen
    · intro x hx y hy hxy
      funext a
      have hxa := hbox x hx a
      have hya := hbox y hy a
      have hba := hb a
      have e : ⌊(x a : ℝ) - o a⌋₊ = ⌊(y a : ℝ) - o a⌋₊ := congrFun hxy a
      have l1 := Nat.floor_le (show (0 : ℝ) ≤ (x a : ℝ) - o a by linarith)
      have l2 := Nat.lt_floor_add_one ((x a : ℝ) - o a)
      have l3 := Nat.floor_le (show (0 : ℝ) ≤ (y a : ℝ) - o a by linarith)
      have l4 := Nat.lt_floor_add_one ((y a : ℝ) - o a)
      rw [e] at l1 l2
      have u1 : (x a : ℝ) < y a + 1 := by linarith
      have u2 : (y a : ℝ) < x a + 1 := by linarith
      have u1' : x a < y a + 1 := by exact_mod_cast u1
      have u2' : y a < x a + 1 := by exact_mod_cast u2
      omega
  rw [hBc] at hcard
  unfold Comparer.Enough
  exact lt_of_lt_of_le (by norm_num) hcard

/-- Case for `C132_search_partial` and `C132_self`: the lattice compared with itself; afterwards the best offset has mismatch 0 (`C132_kept_false`: and is forgotten). -/
example (p : Profile) (kind : Kind) : ∃ d, Dm.new p kind (fun _ => latticeStep) 1 Timestep.default = .ok d ∧
    ∃ c' lines best diff, Comparer.align p (latticeComparer d) = .ok (c', lines) ∧ lines.getLast? = some (best, diff) ∧
      IsMismatch (Comparer.moving p (latticeComparer d) best) (Comparer.standing p (latticeComparer d)) 0 ∧ c'.aligned = false := by
  obtain ⟨d, e, h⟩ := lattice_new p kind
  refine ⟨d, e, ?_⟩
  obtain ⟨c', lines, best, diff, a1, a2, _, a4⟩ := C132_self p (latticeComparer d) (lattice_comparable h) (SameFile.refl h.inv) rfl
    (lo := fun _ => 0) (hi := fun _ => 99) rfl (by norm_num) (fun off _ => Comparer.placed_cart p _ ⟨_, rfl⟩ off) (fun off ho => lattice_enough p h off ho)
  exact ⟨c', lines, best, diff, a1, a2, a4, (C132_kept_false p _ _ _ _ _ c' lines a1).2.2.1⟩

/-- Case for `C132_offsets`: the lattice is tried a quarter of its size to the left. -/
example : (fun _ => fin (-99 / 4) : Fin 3 → F ℝ) ∈ Comparer.offsets latticeStats :=
  (C132_offsets (s := latticeStats) (lo := fun _ => 0) (hi := fun _ => 99) rfl _).2 ⟨fun _ => -50, fun _ => by norm_num, by funext a; norm_num⟩

/-- Case for `C132_grids`: limits `[0, 99]³` and `[1, 3]³`. -/
example : Comparer.limits1 latticeStats ⟨finLimits (fun _ => 1) (fun _ => 3), 1, [fin 0], fun _ => fin 0⟩ = finLimits (fun _ => 0) (fun _ => 99) ∧
    Comparer.limits2 latticeStats ⟨finLimits (fun _ => 1) (fun _ => 3), 1, [fin 0], fun _ => fin 0⟩ = finLimits (fun _ => 1) (fun _ => (100 : ℝ)) := by
  obtain ⟨a, b⟩ := C132_grids (s := latticeStats) (s2 := ⟨finLimits (fun _ => 1) (fun _ => 3), 1, [fin 0], fun _ => fin 0⟩)
    (lo := fun _ => 0) (hi := fun _ => 99) (lo2 := fun _ => 1) (hi2 := fun _ => 3) rfl rfl (by norm_num) (by norm_num) (by norm_num) (by norm_num)
  rw [a, b]
  constructor
  · congr 1; funext a; norm_num
  · congr 1; funext a; norm_num

/-- Case for `C132_units_false` and `C132_few`: the lattice in millimetres against one particle whose recorded limits are `[0, 0.099]³` metres. -/
example (p : Profile) (kind : Kind) : ∃ d d2, Dm.new p kind (fun _ => latticeStep) 1 Timestep.default = .ok d ∧
    Dm.new p kind (fun _ => oneStep (K := ℝ)) 1 Timestep.default = .ok d2 ∧
    Comparer.align p (Comparer.compare d latticeStats d2 ⟨finLimits (fun _ => 0) (fun _ => 99 / 1000), 1, [fin 0], fun _ => fin 0⟩
      (Grid.newCart hundred (finLimits (fun _ => 0) (fun _ => 99)))) = .error .unwrap := by
  obtain ⟨d, e, h⟩ := lattice_new p kind
  obtain ⟨d2, e2, hi2, hf2, hn2, _⟩ := Dm.new_ok p kind (fun _ => oneStep (K := ℝ)) 1 Timestep.default (by norm_num) (by norm_num)
  refine ⟨d, d2, e, e2, ?_⟩
  have hsam : d2.samples Selector.default = [(0, 0)] := by
    unfold Dm.samples
    rw [hf2, hn2]
    exact one_samples
  refine (C132_units_false p (Comparer.compare d latticeStats d2 ⟨finLimits (fun _ => 0) (fun _ => 99 / 1000), 1, [fin 0], fun _ => fin 0⟩
      (Grid.newCart hundred (finLimits (fun _ => 0) (fun _ => 99)))) (lattice_comparable h) ⟨hi2, fun t _ => ?_, ?_⟩ ⟨_, rfl⟩ (lo := fun _ => 0) (hi := fun _ => 99) (lo2 := fun _ => 0)
    (hi2 := fun _ => 99 / 1000) rfl rfl (fun _ => by norm_num) (by norm_num) ?_).2
  · change (d2.file t).Wf
    rw [hf2]
    exact ⟨rfl, rfl, rfl, rfl, rfl, rfl⟩
  · change (d2.samples Selector.default).length ≤ _
    rw [hsam]
    norm_num
  · intro x hx
    change x ∈ d2.samples Selector.default at hx
    rw [hsam] at hx
    obtain rfl : x = (0, 0) := by simpa using hx
    refine ⟨fun _ => 0, ?_, fun _ => by norm_num⟩
    change posOf d2.file (0, 0) = _
    rw [hf2]
    rfl

/-- Case for `C132_fields`: the lattice compared with itself on any grid that can be filled, speeds up to 10. -/
example (p : Profile) (kind : Kind) (grid : Grid ℝ) (hg : grid.Fillable p) : ∃ d c' l l2, Dm.new p kind (fun _ => latticeStep) 1 Timestep.default = .ok d ∧
    Comparer.velocityfields p (Comparer.compare d latticeStats d latticeStats grid) "absolute" (fin 0) (fin 10) = .ok (c', l, l2) := by
  obtain ⟨d, e, h⟩ := lattice_new p kind
  obtain ⟨d1, g1, d2, g2, c', -, -, r, -⟩ := C132_fields p d d (lattice_comparable h) (lattice_comparable h) latticeStats latticeStats grid hg "absolute" _ rfl (fin 0) (fin 10)
    (by simp) (by simp)
  exact ⟨d, c', _, _, e, r⟩

end Up4
