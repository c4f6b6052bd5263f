import Verif.Proofs.Cyl
import Verif.RealArith

set_option linter.unusedSectionVars false

/-! # C19–C22: cylindrical grids -/

namespace Up4
open F

variable {K : Type} [Field K] [LinearOrder K] [IsStrictOrderedRing K] [FloorRing K] [Arith K]

/-! ### C19 -/

section exact
variable [ExactArith K]

theorem sqrt_exact {x s : K} (hx : 0 ≤ x) (hs : 0 ≤ s) (h : s * s = x) : (fin x : F K).sqrt = fin s := by
  obtain ⟨t, ht, ht0, htt⟩ := ExactArith.sqrt_eq x hx
  simp only [F.sqrt]
  rw [if_neg (not_lt.2 hx), ht]
  congr 1
  nlinarith [mul_self_nonneg (s - t), mul_self_nonneg (s + t), mul_self_inj_of_nonneg ht0 hs |>.1 (htt.trans h.symm)]

theorem exists_sqrt (x : K) (hx : 0 ≤ x) : ∃ s : K, 0 ≤ s ∧ s * s = x := by
  obtain ⟨s, _, h1, h2⟩ := ExactArith.sqrt_eq x hx
  exact ⟨s, h1, h2⟩

/-- The shell list in exact arithmetic, for any family `r` of radii with the right squares. -/
theorem shells_exact {R : K} {n : ℕ} (hn : 1 ≤ n) (r : ℕ → K)
    (hr : ∀ i, 0 ≤ r i ∧ r i * r i = i * (R * R / n)) (m i : ℕ) :
    CylGeom.shells (fin R) n m (fin (r i)) =
      (List.range m).map fun k => (fin (r (i + k)), fin (r (i + k + 1))) := by
  induction m generalizing i with
  | zero => rfl
  | succ m ih =>
    have hn0 : (n : K) ≠ 0 := by exact_mod_cast (by omega : n ≠ 0)
    have hnext : CylGeom.nextRadius (fin R) n (fin (r i)) = fin (r (i + 1)) := by
      unfold CylGeom.nextRadius
      rw [emul, emul, eofNat, ediv _ hn0, eadd]
      apply sqrt_exact
      · have : 0 ≤ R * R / n := div_nonneg (mul_self_nonneg R) (Nat.cast_nonneg n)
        exact add_nonneg this (mul_self_nonneg _)
      · exact (hr _).1
      · rw [(hr (i + 1)).2, (hr i).2]; push_cast; ring
    rw [CylGeom.shells, hnext, ih (i + 1), List.range_succ_eq_map, List.map_cons, List.map_map]
    congr 1
    apply List.map_congr_left
    intro k _
    simp only [Function.comp]
    rw [show i + 1 + k = i + (k + 1) by omega]

theorem halfWidth_exact {lo hi : K} (h : lo ≤ hi) :
    CylGeom.halfWidth (fin lo, fin hi) (CylGeom.mid (fin lo, fin hi)) = fin ((hi - lo) / 2) := by
  have h2 : ((2 : ℕ) : K) ≠ 0 := by norm_num
  unfold CylGeom.halfWidth CylGeom.mid
  dsimp only
  rw [eadd, eofNat, ediv _ h2, esub, esub]
  have e1 : hi - (lo + hi) / ((2 : ℕ) : K) = (hi - lo) / 2 := by push_cast; ring
  have e2 : lo - (lo + hi) / ((2 : ℕ) : K) = -((hi - lo) / 2) := by push_cast; ring
  rw [e1, e2]
  simp only [F.abs, abs_neg]
  rw [abs_of_nonneg (by linarith)]
  split_ifs <;> rfl

/-- The outer radius is half of the longer side of the base rectangle. -/
theorem outerRadius_exact (lo hi : Fin 3 → K) (h : ∀ a, lo a ≤ hi a) :
    CylGeom.outerRadius (finLimits lo hi) = fin (max ((hi 0 - lo 0) / 2) ((hi 1 - lo 1) / 2)) := by
  have h0 : CylGeom.halfWidth (finLimits lo hi 0) (CylGeom.mid (finLimits lo hi 0)) = fin _ :=
    halfWidth_exact (h 0)
  have h1 : CylGeom.halfWidth (finLimits lo hi 1) (CylGeom.mid (finLimits lo hi 1)) = fin _ :=
    halfWidth_exact (h 1)
  unfold CylGeom.outerRadius
  simp only [h0, h1]
  by_cases hc : (hi 0 - lo 0) / 2 > (hi 1 - lo 1) / 2
  · rw [if_pos (by change fin _ < fin _; rw [lt_fin]; exact hc), max_eq_left hc.le]
  · rw [if_neg (by change ¬ fin _ < fin _; rw [lt_fin]; exact hc), max_eq_right (not_lt.1 hc)]

/-- **C19.** Exact arithmetic.  The radial shells of a cylindrical grid over a non-empty box: there are
`n` of them, given by radii `r 0 = 0 < r 1 < … < r n = R`, where `R` is half of the longer base side;
shell `i` spans `r i … r (i+1)`, so each starts where the previous ends; every shell has the same
cross-section `r (i+1)² - r i² = R²/n`.  The radial position published for a shell is the mean of its two
radii. -/
theorem C19_shells (cells : CellId) (lo hi : Fin 3 → K) (hlt : ∀ a, lo a < hi a) (hn : 1 ≤ cells 0) :
    ∃ (R : K) (r : ℕ → K), R = max ((hi 0 - lo 0) / 2) ((hi 1 - lo 1) / 2) ∧ 0 < R ∧
      (CylGeom.new cells (finLimits lo hi)).radius = fin R ∧
      (CylGeom.new cells (finLimits lo hi)).rpositions =
        (List.range (cells 0)).map (fun i => (fin (r i), fin (r (i + 1)))) ∧
      r 0 = 0 ∧ r (cells 0) = R ∧ (∀ i j, i < j → r i < r j) ∧
      (∀ i, r (i + 1) * r (i + 1) - r i * r i = R * R / cells 0) ∧
      (CylGeom.new cells (finLimits lo hi)).rmeanpositions = (List.range (cells 0)).map (fun i => fin ((r i + r (i + 1)) / 2)) := by
  have hn0 : (0 : K) < cells 0 := by exact_mod_cast hn
  set R := max ((hi 0 - lo 0) / 2) ((hi 1 - lo 1) / 2) with hR
  have hRpos : 0 < R := lt_max_of_lt_left (by have := hlt 0; linarith)
  have hV : 0 < R * R / cells 0 := div_pos (mul_pos hRpos hRpos) hn0
  have hex : ∀ i : ℕ, ∃ s : K, 0 ≤ s ∧ s * s = i * (R * R / cells 0) :=
    fun i => exists_sqrt _ (mul_nonneg (Nat.cast_nonneg i) hV.le)
  choose r hr0 hrr using hex
  have hor := outerRadius_exact lo hi (fun a => (hlt a).le)
  have h0 : r 0 = 0 := by
    have := hrr 0; simp at this; exact this
  have hmono : ∀ i j, i < j → r i < r j := by
    intro i j hij
    have hc : (i : K) < j := by exact_mod_cast hij
    have := mul_lt_mul_of_pos_right hc hV
    rw [← hrr, ← hrr] at this
    nlinarith [hr0 i, hr0 j]
  have hrp : (CylGeom.new cells (finLimits lo hi)).rpositions = (List.range (cells 0)).map (fun i => (fin (r i), fin (r (i + 1)))) := by
    have := shells_exact (R := R) hn r (fun i => ⟨hr0 i, hrr i⟩) (cells 0) 0
    rw [h0] at this
    simp only [CylGeom.new]
    rw [hor]
    simp only [Nat.zero_add] at this
    exact this
  refine ⟨R, r, rfl, hRpos, hor, hrp, h0, ?_, hmono, ?_, ?_⟩
  · have h1 : r (cells 0) * r (cells 0) = R * R := by
      rw [hrr]; field_simp
    exact (mul_self_inj_of_nonneg (hr0 _) hRpos.le).1 h1
  · intro i
    rw [hrr, hrr]; push_cast; ring
  · have : (CylGeom.new cells (finLimits lo hi)).rmeanpositions =
        (CylGeom.new cells (finLimits lo hi)).rpositions.map fun x => (x.1 + x.2) / F.ofNat 2 := rfl
    rw [this, hrp, List.map_map]
    apply List.map_congr_left
    intro i _
    change (Arith.rnd (r i + r (i + 1)) : F K) / Arith.rnd ((2 : ℕ) : K) = _
    rw [ExactArith.rnd_eq, ExactArith.rnd_eq]
    have h2 : (((2 : ℕ) : K)) ≠ 0 := by norm_num
    rw [F.div_fin_ne _ h2, ExactArith.rnd_eq]
    norm_num

end exact

/-- Witness for C19–C22: an ordinary cylinder. -/
example : (∀ a : Fin 3, (fun _ => (0 : ℝ)) a < (fun _ => (2 : ℝ)) a) ∧ 1 ≤ (fun _ : Fin 3 => 5) 0 :=
  ⟨fun _ => by norm_num, by norm_num⟩

/-! ### C20 -/

/-- The lookup succeeds for every position with a radius within the shells and a finite height. -/
theorem cyl_cellId_core [LawfulArith K] (cells : CellId) (hc : CellsOk cells) (lim : Limits K)
    {lo hi d : K} (hz : lim 2 = (fin lo, fin hi)) (hd : fin hi - fin lo = (fin d : F K)) (hd0 : 0 ≤ d)
    (hR : CylGeom.outerRadius lim ≠ F.nan)
    (pos : Pos K) {zv : K} (hzv : pos 2 = fin zv)
    (hlast : ∃ s, (CylGeom.new cells lim).rpositions[cells 0 - 1]? = some s ∧
      (CylGeom.new cells lim).toCylindrical pos 0 ≤ s.2) :
    ∃ c s, (CylGeom.new cells lim).cellId pos = .ok (some c) ∧ InB cells c ∧
      (CylGeom.new cells lim).rpositions[c 0]? = some s ∧
      s.1 ≤ (CylGeom.new cells lim).toCylindrical pos 0 ∧
      (CylGeom.new cells lim).toCylindrical pos 0 ≤ s.2 := by
  set g := CylGeom.new cells lim with hg
  set r := g.toCylindrical pos 0 with hrdef
  have hrn : r ≠ F.nan := by
    obtain ⟨s, _, h⟩ := hlast
    intro e; rw [e] at h; simp at h
  have hr0 : fin 0 ≤ r := CylGeom.sqrt_nonneg' _ hrn
  -- radial
  have hrp : g.rpositions = CylGeom.shells (CylGeom.outerRadius lim) (cells 0) (cells 0) 0 := rfl
  have hnn := CylGeom.shells_nonneg hR (hc 0).1 (hc 0).2 (cells 0) (inner := (0 : F K)) (by rw [F.zero_def, le_fin])
  obtain ⟨k0, hk0⟩ : ∃ k, cells 0 = k + 1 := ⟨cells 0 - 1, by have := (hc 0).1; omega⟩
  have hcover : ∃ s ∈ g.rpositions, CylGeom.Has s r := by
    rw [hrp]
    rw [hrp] at hlast
    have e : cells 0 - 1 = k0 := by omega
    rw [e] at hlast
    have := CylGeom.shells_cover (CylGeom.outerRadius lim) (cells 0) k0 0 r hr0
      (by rw [← hk0]; exact hlast) (by
        rw [← hk0]; intro s hs h
        have := (hnn s hs).2; rw [h] at this; simp at this)
    rw [← hk0] at this
    exact this
  have hlen : g.rpositions.length = cells 0 := by rw [hrp]; exact CylGeom.shells_length _ _ _ _
  rcases CylGeom.radialScan_spec r g.rpositions 0 none with ⟨i, h1, ⟨s, hs, hhas⟩, _⟩ | ⟨_, h2⟩
  swap
  · obtain ⟨s, hs, hh⟩ := hcover; exact absurd hh (h2 s hs)
  have hilt : i < cells 0 := by
    rw [← hlen]; by_contra h
    rw [List.getElem?_eq_none (by omega)] at hs; cases hs
  -- angle
  obtain ⟨t, ht⟩ := CylGeom.angle_fin g pos hrn
  have hop : g.opositions = (List.range (cells 1)).map (CylGeom.opos (cells 1)) := rfl
  have hzp : g.zpositions = (List.range (cells 2)).map (CylGeom.zpos (lim 2) (cells 2)) := rfl
  have one : ∀ a, cells a ≠ 0 := fun a => by have := (hc a).1; omega
  obtain ⟨j, _, hj1, hj2, _⟩ := CylGeom.nearest_spec g.opositions (fin t)
    (by rw [hop]; simp [one 1]) (by
      intro y hy; rw [hop] at hy
      obtain ⟨m, hm, rfl⟩ := List.mem_map.1 hy
      exact CylGeom.abs_ne_nan (CylGeom.sub_fin_ne_nan _
        (CylGeom.opos_ne_nan (hc 1).1 (hc 1).2 (List.mem_range.1 hm))))
  -- height
  have hzv' : g.toCylindrical pos 2 = fin zv := hzv
  obtain ⟨k, _, hk1, hk2, _⟩ := CylGeom.nearest_spec g.zpositions (fin zv)
    (by rw [hzp]; simp [one 2]) (by
      intro y hy; rw [hzp] at hy
      obtain ⟨m, hm, rfl⟩ := List.mem_map.1 hy
      rw [hz]
      exact CylGeom.abs_ne_nan (CylGeom.sub_fin_ne_nan _
        (CylGeom.zpos_ne_nan hd hd0 (hc 2).1 (hc 2).2 (List.mem_range.1 hm))))
  rw [hop, List.length_map, List.length_range] at hj2
  rw [hzp, List.length_map, List.length_range] at hk2
  refine ⟨![i, j, k], s, ?_, ?_, hs, hhas.1, hhas.2⟩
  · unfold CylGeom.cellId
    dsimp only
    rw [ht, hzv', hj1, hk1]
    change (match CylGeom.radialScan r g.rpositions 0 none with | none => _ | some i => _) = _
    rw [h1, Nat.zero_add]
  · intro a; fin_cases a
    · exact hilt
    · exact hj2
    · exact hk2

/-- **C20, any lawful rounding (partial).** The full property: for every position inside a cylindrical
grid `cell_id` does not panic and returns a cell of the grid.  Proved for every rounding under the extra
condition that the radius does not exceed the end of the last computed shell (in exact arithmetic this
follows, see `C20_lookup`; under rounding it can fail and `cell_id` then panics, see `C20_beyond_panics`
and `C20_false`). -/
theorem C20_lookup_rounded_partial [LawfulArith K] (cells : CellId) (hc : CellsOk cells) (lim : Limits K)
    {lo hi d : K} (hz : lim 2 = (fin lo, fin hi)) (hd : fin hi - fin lo = (fin d : F K)) (hd0 : 0 ≤ d)
    (hR : CylGeom.outerRadius lim ≠ F.nan)
    (pos : Pos K) (hin : (CylGeom.new cells lim).isInside pos = true)
    (hlast : ∃ s, (CylGeom.new cells lim).rpositions[cells 0 - 1]? = some s ∧
      (CylGeom.new cells lim).toCylindrical pos 0 ≤ s.2) :
    ∃ c s, (CylGeom.new cells lim).cellId pos = .ok (some c) ∧ InB cells c ∧
      (CylGeom.new cells lim).rpositions[c 0]? = some s ∧
      s.1 ≤ (CylGeom.new cells lim).toCylindrical pos 0 ∧
      (CylGeom.new cells lim).toCylindrical pos 0 ≤ s.2 := by
  unfold CylGeom.isInside at hin
  simp only [Bool.and_eq_true, decide_eq_true_eq] at hin
  obtain ⟨⟨hr, _⟩, hz1, hz2⟩ := hin
  have hlim2 : (CylGeom.new cells lim).limits 2 = (fin lo, fin hi) := by
    change ((lim 2).1, (lim 2).2) = _; rw [hz]
  rw [hlim2] at hz1 hz2
  have hp2 : (CylGeom.new cells lim).toCylindrical pos 2 = pos 2 := rfl
  rw [hp2] at hz1 hz2
  obtain ⟨zv, hzv⟩ : ∃ z, pos 2 = fin z := by
    cases hx : pos 2 with
    | nan => rw [hx] at hz1; simp at hz1
    | ninf => rw [hx] at hz1; simp at hz1
    | pinf => rw [hx] at hz2; simp at hz2
    | fin z => exact ⟨z, rfl⟩
  exact cyl_cellId_core cells hc lim hz hd hd0 hR pos hzv hlast

/-- **C20/C22.** Beyond every shell the lookup panics — it never returns `Err`. -/
theorem C20_beyond_panics (g : CylGeom K) (pos : Pos K)
    (h : ∀ s ∈ g.rpositions, ¬ (s.1 ≤ g.toCylindrical pos 0 ∧ g.toCylindrical pos 0 ≤ s.2)) :
    g.cellId pos = .error .explicit := by
  unfold CylGeom.cellId
  rcases CylGeom.radialScan_spec (g.toCylindrical pos 0) g.rpositions 0 none with ⟨i, _, ⟨s, hs, hh⟩, _⟩ | ⟨h1, _⟩
  · exact absurd hh (h s (List.mem_of_getElem? hs))
  · simp only [h1]

/-- The cylindrical lookup never returns `Err`: it panics or returns a cell. -/
theorem C20_never_err (g : CylGeom K) (pos : Pos K) : g.cellId pos ≠ .ok none := by
  unfold CylGeom.cellId
  dsimp only
  split
  · intro h; cases h
  · split
    · intro h; cases h
    · split
      · intro h; cases h
      · intro h; cases h

section exact
variable [LawfulArith K] [ExactArith K]

/-- **C20.** Exact arithmetic: for every position inside a cylindrical grid over a non-empty box with
`1 … 2^53` cells per axis, `cell_id` does not panic and returns a cell of the grid. -/
theorem C20_lookup (cells : CellId) (hc : CellsOk cells) (lo hi : Fin 3 → K) (hlt : ∀ a, lo a < hi a)
    (pos : Pos K) (hin : (CylGeom.new cells (finLimits lo hi)).isInside pos = true) :
    ∃ c s, (CylGeom.new cells (finLimits lo hi)).cellId pos = .ok (some c) ∧ InB cells c ∧
      (CylGeom.new cells (finLimits lo hi)).rpositions[c 0]? = some s ∧
      s.1 ≤ (CylGeom.new cells (finLimits lo hi)).toCylindrical pos 0 ∧
      (CylGeom.new cells (finLimits lo hi)).toCylindrical pos 0 ≤ s.2 := by
  obtain ⟨R, r, hR, hRp, hrad, hrp, h0, hn, hmono, _⟩ := C19_shells cells lo hi hlt (hc 0).1
  refine C20_lookup_rounded_partial cells hc (finLimits lo hi) (lo := lo 2) (hi := hi 2) (d := hi 2 - lo 2) rfl
    (esub _ _) (by have := hlt 2; linarith) (by
      have : CylGeom.outerRadius (finLimits lo hi) = fin R := hrad
      rw [this]; intro h; cases h) pos hin ⟨(fin (r (cells 0 - 1)), fin (r (cells 0 - 1 + 1))), ?_, ?_⟩
  · rw [hrp, List.getElem?_map, List.getElem?_range (by have := (hc 0).1; omega)]; rfl
  · have e : cells 0 - 1 + 1 = cells 0 := by have := (hc 0).1; omega
    rw [e, hn]
    unfold CylGeom.isInside at hin
    simp only [Bool.and_eq_true, decide_eq_true_eq] at hin
    have := hin.1.1
    rw [hrad] at this
    exact this

/-! ### C21 -/

theorem zpos_exact {lo hi : K} {n i : ℕ} (hn : 1 ≤ n) :
    CylGeom.zpos (fin lo, fin hi) n i = fin (lo + (i + 1) * ((hi - lo) / n)) := by
  have hn' : (n : K) ≠ 0 := by exact_mod_cast (by omega : n ≠ 0)
  unfold CylGeom.zpos
  dsimp only
  rw [esub, eofNat, eofNat, ediv _ hn', emul, eadd, eadd]
  congr 1; ring

theorem opos_exact {n i : ℕ} (hn : 1 ≤ n) :
    (CylGeom.opos n i : F K) = fin (-Arith.piK + ((i : K) + 1) * ((Arith.piK - -Arith.piK) / (n : K))) := by
  have hn' : (n : K) ≠ 0 := by exact_mod_cast (by omega : n ≠ 0)
  unfold CylGeom.opos F.pi
  dsimp only
  rw [eofNat, eofNat, eofNat, emul, ediv _ hn', emul, neg_fin, eadd, eadd]
  congr 1; push_cast; ring

omit [LawfulArith K] [ExactArith K] in
/-- `j` is the index of the published boundary `lo + (j+1)·h` nearest to `x`, the lower one on a tie. -/
def NearestEdge (lo h : K) (n j : ℕ) (x : K) : Prop :=
  j < n ∧ (j = 0 ∨ lo + (j + 1) * h - h / 2 < x) ∧ (j + 1 = n ∨ x ≤ lo + (j + 1) * h + h / 2)

theorem nearest_uniform (lo h x : K) (hh : 0 < h) {n j : ℕ}
    (hj : CylGeom.nearest ((List.range n).map fun i : ℕ => (fin (lo + ((i : K) + 1) * h) : F K)) (fin x) = some j) :
    NearestEdge lo h n j x := by
  set b := (List.range n).map fun i : ℕ => (fin (lo + ((i : K) + 1) * h) : F K) with hb
  have hne : b ≠ [] := by
    intro e; rw [e] at hj; simp [CylGeom.nearest, CylGeom.argmin] at hj
  obtain ⟨k, y, h1, h2, h3, h4⟩ := CylGeom.nearest_spec b (fin x) hne (by
    intro y hy; obtain ⟨i, _, rfl⟩ := List.mem_map.1 hy
    rw [esub]; intro e; cases e)
  rw [hj] at h1; cases h1
  have hget : ∀ i, i < n → b[i]? = some (fin (lo + ((i : K) + 1) * h)) := by
    intro i hi; rw [hb, List.getElem?_map, List.getElem?_range hi]; rfl
  have hlen : b.length = n := by rw [hb, List.length_map, List.length_range]
  rw [hlen] at h2
  rw [hget j h2] at h3
  simp only [Option.some.injEq] at h3
  subst h3
  refine ⟨h2, ?_, ?_⟩
  · by_cases h0 : j = 0
    · left; exact h0
    right
    have := (h4 (j - 1) _ (hget (j - 1) (by omega))).2 (by omega)
    rw [esub, esub] at this
    simp only [F.abs, lt_fin] at this
    rw [Nat.cast_sub (by omega : 1 ≤ j)] at this
    push_cast at this
    rw [abs_lt_iff_mul_self_lt] at this
    by_contra hc
    rw [not_lt] at hc
    nlinarith
  · by_cases h0 : j + 1 = n
    · left; exact h0
    right
    have := (h4 (j + 1) _ (hget (j + 1) (by omega))).1
    rw [esub, esub] at this
    simp only [F.abs, le_fin] at this
    push_cast at this
    rw [abs_le_iff_mul_self_le] at this
    by_contra hc
    rw [not_le] at hc
    nlinarith

/-- **C21 (partial).** The full property: for an inside position the returned radial, angular and height
cells contain it, where cell `k` spans from the previous published boundary to its own.  Proved (exact
arithmetic): the radial shell contains the radius; the angular and height indices are those of the
*nearest published upper boundary*, so an angle or height in the upper half of its cell (or in the first
cell) is placed correctly — see `C21_upper_half` — and one in the lower half is placed one cell too low
(`C21_lower_half`).  Missing: the lower halves, for which the property is false (`C21_false`). -/
theorem C21_cell_partial (cells : CellId) (hc : CellsOk cells) (lo hi : Fin 3 → K) (hlt : ∀ a, lo a < hi a)
    (pos : Pos K) (hin : (CylGeom.new cells (finLimits lo hi)).isInside pos = true) :
    ∃ c s θ z, (CylGeom.new cells (finLimits lo hi)).cellId pos = .ok (some c) ∧
      (CylGeom.new cells (finLimits lo hi)).rpositions[c 0]? = some s ∧
      (s.1 ≤ (CylGeom.new cells (finLimits lo hi)).toCylindrical pos 0 ∧
        (CylGeom.new cells (finLimits lo hi)).toCylindrical pos 0 ≤ s.2) ∧
      (CylGeom.new cells (finLimits lo hi)).toCylindrical pos 1 = fin θ ∧ pos 2 = fin z ∧
      NearestEdge (-Arith.piK) ((Arith.piK - -Arith.piK) / (cells 1 : K)) (cells 1) (c 1) θ ∧
      NearestEdge (lo 2) ((hi 2 - lo 2) / cells 2) (cells 2) (c 2) z := by
  obtain ⟨c, s, h1, h2, h3, h4, h5⟩ := C20_lookup cells hc lo hi hlt pos hin
  set g := CylGeom.new cells (finLimits lo hi) with hg
  have hin' := hin
  unfold CylGeom.isInside at hin
  simp only [Bool.and_eq_true, decide_eq_true_eq] at hin
  obtain ⟨⟨hr, _⟩, hz1, hz2⟩ := hin
  have hrn : g.toCylindrical pos 0 ≠ F.nan := by intro h; rw [h] at hr; simp at hr
  obtain ⟨θ, hθ⟩ := CylGeom.angle_fin g pos hrn
  have hlim2 : g.limits 2 = (fin (lo 2), fin (hi 2)) := rfl
  have hp2 : g.toCylindrical pos 2 = pos 2 := rfl
  rw [hlim2] at hz1 hz2
  obtain ⟨z, hz⟩ : ∃ z, pos 2 = fin z := by
    rw [hp2] at hz1 hz2
    cases hx : pos 2 with
    | nan => rw [hx] at hz1; simp at hz1
    | ninf => rw [hx] at hz1; simp at hz1
    | pinf => rw [hx] at hz2; simp at hz2
    | fin z => exact ⟨z, rfl⟩
  have hn1 : (0 : K) < cells 1 := by exact_mod_cast (hc 1).1
  have hn2 : (0 : K) < cells 2 := by exact_mod_cast (hc 2).1
  have hpi := LawfulArith.pi_pos (K := K)
  refine ⟨c, s, θ, z, h1, h3, ⟨h4, h5⟩, hθ, hz, ?_, ?_⟩
  · apply nearest_uniform _ _ _ (div_pos (by linarith) hn1)
    unfold CylGeom.cellId at h1
    dsimp only at h1
    rw [hθ] at h1
    have hop : g.opositions = (List.range (cells 1)).map fun i : ℕ =>
        (fin (-Arith.piK + ((i : K) + 1) * ((Arith.piK - -Arith.piK) / cells 1)) : F K) := by
      change (List.range (cells 1)).map (CylGeom.opos (cells 1)) = _
      exact List.map_congr_left fun i _ => opos_exact (hc 1).1
    rw [← hop]
    split at h1
    · cases h1
    · split at h1
      · cases h1
      · rename_i j hj
        split at h1
        · cases h1
        · rw [hj]; cases h1; rfl
  · apply nearest_uniform _ _ _ (div_pos (by have := hlt 2; linarith) hn2)
    unfold CylGeom.cellId at h1
    dsimp only at h1
    rw [hp2, hz] at h1
    have hzp : g.zpositions = (List.range (cells 2)).map fun i : ℕ =>
        (fin (lo 2 + ((i : K) + 1) * ((hi 2 - lo 2) / cells 2)) : F K) := by
      change (List.range (cells 2)).map (CylGeom.zpos (finLimits lo hi 2) (cells 2)) = _
      exact List.map_congr_left fun i _ => zpos_exact (hc 2).1
    rw [← hzp]
    split at h1
    · cases h1
    · split at h1
      · cases h1
      · split at h1
        · cases h1
        · rename_i k hk
          rw [hk]; cases h1; rfl

omit [FloorRing K] [Arith K] [LawfulArith K] [ExactArith K] in
/-- A value in the upper half of cell `k` (or anywhere in the first cell) is assigned to cell `k`. -/
theorem C21_upper_half {lo h x : K} (hh : 0 < h) {n j k : ℕ} (hn : NearestEdge lo h n j x) (hk : k < n)
    (_hx1 : lo + k * h ≤ x) (hx2 : x ≤ lo + (k + 1) * h) (hu : k = 0 ∨ lo + (k + 1) * h - h / 2 < x) : j = k := by
  obtain ⟨hj, h1, h2⟩ := hn
  rcases lt_trichotomy j k with hlt | heq | hgt
  · exfalso
    have hjk : (j : K) + 1 ≤ k := by exact_mod_cast hlt
    have := mul_le_mul_of_nonneg_right hjk hh.le
    rcases h2 with h2 | h2
    · omega
    · rcases hu with hu | hu
      · omega
      · linarith
  · exact heq
  · exfalso
    have hjk : (k : K) + 1 ≤ j := by exact_mod_cast hgt
    have := mul_le_mul_of_nonneg_right hjk hh.le
    rcases h1 with h1 | h1
    · omega
    · linarith

omit [FloorRing K] [Arith K] [LawfulArith K] [ExactArith K] in
/-- A value in the lower half of any cell but the first is assigned to the cell below. -/
theorem C21_lower_half {lo h x : K} (hh : 0 < h) {n j k : ℕ} (hn : NearestEdge lo h n j x) (hk : k + 1 < n)
    (hx1 : lo + (k + 1) * h ≤ x) (hx2 : x ≤ lo + (k + 1) * h + h / 2) : j = k := by
  obtain ⟨hj, h1, h2⟩ := hn
  rcases lt_trichotomy j k with hlt | heq | hgt
  · exfalso
    have hjk : (j : K) + 1 ≤ k := by exact_mod_cast hlt
    have := mul_le_mul_of_nonneg_right hjk hh.le
    rcases h2 with h2 | h2
    · omega
    · linarith
  · exact heq
  · exfalso
    have hjk : (k : K) + 1 ≤ j := by exact_mod_cast hgt
    have := mul_le_mul_of_nonneg_right hjk hh.le
    rcases h1 with h1 | h1
    · omega
    · linarith

/-- A point on the axis of a cylinder over `[0,4]³`, at height `z`. -/
theorem axis_inside (cells : CellId) (z : K) (h0 : 0 ≤ z) (h4 : z ≤ 4) :
    (CylGeom.new cells (finLimits (fun _ => (0 : K)) (fun _ => 4))).isInside ![fin 2, fin 2, fin z] = true := by
  have h2 : ((2 : ℕ) : K) ≠ 0 := by norm_num
  have hmid : CylGeom.mid (fin 0, fin 4) = (fin 2 : F K) := by
    unfold CylGeom.mid; dsimp only
    rw [eadd, eofNat, ediv _ h2]; congr 1; push_cast; norm_num
  have hR : (CylGeom.new cells (finLimits (fun _ => (0 : K)) (fun _ => 4))).radius = fin 2 := by
    have := outerRadius_exact (K := K) (fun _ => 0) (fun _ => 4) (fun _ => by norm_num)
    change CylGeom.outerRadius _ = _
    rw [this]; norm_num
  have hcyl : (CylGeom.new cells (finLimits (fun _ => (0 : K)) (fun _ => 4))).toCylindrical ![fin 2, fin 2, fin z]
      = ![fin 0, F.atan2 (fin 0) (fin 0), fin z] := by
    unfold CylGeom.toCylindrical
    have c0 : (CylGeom.new cells (finLimits (fun _ => (0 : K)) (fun _ => 4))).center 0 = fin 2 := hmid
    have c1 : (CylGeom.new cells (finLimits (fun _ => (0 : K)) (fun _ => 4))).center 1 = fin 2 := hmid
    rw [c0, c1]
    simp only [Matrix.cons_val_zero, Matrix.cons_val_one]
    rw [esub, sub_self, emul, mul_zero, eadd, add_zero, sqrt_exact (le_refl 0) (le_refl 0) (mul_zero 0)]
    rfl
  obtain ⟨t, ht, ht1, ht2⟩ := LawfulArith.atan2_range (0 : K) 0
  unfold CylGeom.isInside
  rw [hcyl, hR]
  have l1 : (CylGeom.new cells (finLimits (fun _ => (0 : K)) (fun _ => 4))).limits 1 = (-F.pi, F.pi) := rfl
  have l2 : (CylGeom.new cells (finLimits (fun _ => (0 : K)) (fun _ => 4))).limits 2 = (fin 0, fin 4) := rfl
  rw [l1, l2]
  have e1 : (![fin 0, F.atan2 (fin 0) (fin 0), fin z] : Fin 3 → F K) 1 = fin t := ht
  have e2 : (![fin 0, F.atan2 (fin 0) (fin 0), fin z] : Fin 3 → F K) 2 = fin z := rfl
  have e0 : (![fin 0, F.atan2 (fin 0) (fin 0), fin z] : Fin 3 → F K) 0 = fin 0 := rfl
  dsimp only
  rw [e0, e1, e2]
  simp only [F.pi, neg_fin, le_fin, Bool.and_eq_true, decide_eq_true_eq]
  exact ⟨⟨by norm_num, ht1, ht2⟩, h0, h4⟩

/-- **C21 is false of the code**: in the cylinder over `[0,4]³` with two height cells (0…2 and 2…4),
the point on the axis at height 5/2 lies in height cell 1 but is looked up as height cell 0. -/
theorem C21_false : ∃ c, (CylGeom.new (fun a => if a = 2 then 2 else 1)
      (finLimits (fun _ => (0 : K)) (fun _ => 4))).cellId ![fin 2, fin 2, fin (5 / 2)] = .ok (some c) ∧
    c 2 = 0 ∧
    (CylGeom.new (fun a => if a = 2 then 2 else 1)
      (finLimits (fun _ => (0 : K)) (fun _ => 4))).zpositions = [fin 2, fin 4] := by
  have hc : CellsOk (fun a : Fin 3 => if a = 2 then 2 else 1) := by
    intro a; dsimp only; split_ifs <;> norm_num
  obtain ⟨c, s, θ, z, h1, _, _, _, hz, _, h2⟩ := C21_cell_partial (K := K) _ hc (fun _ => 0) (fun _ => 4)
    (fun _ => by norm_num) ![fin 2, fin 2, fin (5 / 2)] (axis_inside _ _ (by norm_num) (by norm_num))
  have hzz : z = 5 / 2 := by
    have : (fin (5 / 2) : F K) = fin z := hz
    cases this; rfl
  subst hzz
  refine ⟨c, h1, ?_, ?_⟩
  · have e := C21_lower_half (k := 0) (by norm_num) h2 (by norm_num) (by norm_num) (by norm_num)
    exact e
  · change (List.range 2).map (CylGeom.zpos (fin 0, fin 4) 2) = _
    simp only [List.range_succ, List.range_zero, List.nil_append, List.map_cons, List.map_nil, List.cons_append]
    rw [zpos_exact (by norm_num), zpos_exact (by norm_num)]
    norm_num

/-! ### C22 -/

/-- **C22 is false of the code, radially**: adding a value at any position whose radius exceeds the grid's
radius panics instead of being ignored (so do `insert` and `get_value`). -/
theorem C22_radially_outside_panics (p : Profile) (cells : CellId) (hc : CellsOk cells) (lo hi : Fin 3 → K)
    (hlt : ∀ a, lo a < hi a) (pos : Pos K) (v : F K)
    (hout : (CylGeom.new cells (finLimits lo hi)).radius < (CylGeom.new cells (finLimits lo hi)).toCylindrical pos 0) :
    (Grid.newCyl cells (finLimits lo hi)).addValue p pos v = .error .explicit ∧
    (Grid.newCyl cells (finLimits lo hi)).insert p pos v = .error .explicit ∧
    (Grid.newCyl cells (finLimits lo hi)).getValue p pos = .error .explicit := by
  obtain ⟨R, r, _, _, hrad, hrp, _, hn, hmono, _⟩ := C19_shells cells lo hi hlt (hc 0).1
  have h : (CylGeom.new cells (finLimits lo hi)).cellId pos = .error .explicit := by
    apply C20_beyond_panics
    intro s hs hh
    rw [hrp] at hs
    obtain ⟨i, hi', rfl⟩ := List.mem_map.1 hs
    rw [List.mem_range] at hi'
    have hle : r (i + 1) ≤ r (cells 0) := by
      rcases Nat.lt_or_ge (i + 1) (cells 0) with h | h
      · exact (hmono _ _ h).le
      · rw [show i + 1 = cells 0 by omega]
    rw [hrad] at hout
    have h1 := lt_of_lt_of_le' hout hh.2
    rw [lt_fin] at h1
    linarith [hn ▸ hle]
  have hcid : (Grid.newCyl cells (finLimits lo hi)).cellId p pos = .error .explicit := h
  refine ⟨?_, ?_, ?_⟩
  · unfold Grid.addValue; rw [hcid]; rfl
  · unfold Grid.insert; rw [hcid]; rfl
  · unfold Grid.getValue; rw [hcid]; rfl

/-- **C22 is false of the code, axially**: a position within the radius but at any finite height, however
far above or below the grid, is recorded: `add_value` increases data and weight of some cell. -/
theorem C22_axially_outside_recorded (p : Profile) (cells : CellId) (hc : CellsOk cells) (lo hi : Fin 3 → K)
    (hlt : ∀ a, lo a < hi a) (pos : Pos K) (v : F K) {z : K} (hz : pos 2 = fin z)
    (hr : (CylGeom.new cells (finLimits lo hi)).toCylindrical pos 0 ≤ (CylGeom.new cells (finLimits lo hi)).radius) :
    ∃ g' c, (Grid.newCyl cells (finLimits lo hi)).addValue p pos v = .ok g' ∧ InB cells c ∧
      g'.st.weight.get c = fin 1 ∧ g'.st.data.get c = 0 + v := by
  obtain ⟨R, r, hR, hRp, hrad, hrp, h0, hn, hmono, _⟩ := C19_shells cells lo hi hlt (hc 0).1
  obtain ⟨c, s, h1, h2, _⟩ := cyl_cellId_core cells hc (finLimits lo hi) (lo := lo 2) (hi := hi 2)
    (d := hi 2 - lo 2) rfl (esub _ _) (by have := hlt 2; linarith) (by
      have : CylGeom.outerRadius (finLimits lo hi) = fin R := hrad
      rw [this]; intro h; cases h) pos hz ⟨(fin (r (cells 0 - 1)), fin (r (cells 0 - 1 + 1))), by
        rw [hrp, List.getElem?_map, List.getElem?_range (by have := (hc 0).1; omega)]; rfl, by
        have e : cells 0 - 1 + 1 = cells 0 := by have := (hc 0).1; omega
        rw [e, hn, ← hrad]; exact hr⟩
  have hlk : (Grid.newCyl cells (finLimits lo hi)).geom.cellId p pos = .ok (some c) := h1
  have hok : (Grid.newCyl cells (finLimits lo hi)).geom.LookupOk p pos :=
    ⟨_, hlk, fun d hd => by cases hd; exact h2⟩
  refine ⟨_, c, Grid.addValue_eq ⟨rfl, rfl⟩ hok v, h2, ?_, ?_⟩
  · rw [Geom.lookup_eq hlk]
    simp only [Grid.bumped, Store.bump, Function.update_self, Grid.newCyl, Store.zeros, Arr.const]
    rw [F.zero_def, F.one_def, eadd, zero_add]
  · rw [Geom.lookup_eq hlk]
    simp only [Grid.bumped, Store.bump, Function.update_self, Grid.newCyl, Store.zeros, Arr.const]

/-- Witness for `C22_axially_outside_recorded`: a point on the axis far above the cylinder over `[0,4]³`
is outside, within the radius. -/
example : (CylGeom.new (fun _ => 2) (finLimits (fun _ => (0 : ℝ)) (fun _ => 4))).toCylindrical
    ![fin 2, fin 2, fin 100] 0 ≤ (CylGeom.new (fun _ => 2) (finLimits (fun _ => (0 : ℝ)) (fun _ => 4))).radius := by
  have := axis_inside (K := ℝ) (fun _ => 2) 0 (by norm_num) (by norm_num)
  unfold CylGeom.isInside at this
  simp only [Bool.and_eq_true, decide_eq_true_eq] at this
  exact this.1.1

end exact

end Up4
