import Verif.Proofs.Store
import Verif.RealArith

set_option linter.unusedSectionVars false

/-! # C06–C11: accumulation, insertion, zeroing -/

namespace Up4
open F

variable {K : Type} [Field K] [LinearOrder K] [IsStrictOrderedRing K] [FloorRing K] [Arith K]

/-- A grid whose geometry is Cartesian with sensible cell counts and whose arrays have that shape. -/
def IsCart (g : Grid K) : Prop := (∃ cg, g.geom = .cart cg) ∧ CellsOk g.geom.cells ∧ g.Shaped

theorem IsCart.lookupOk [LawfulArith K] {g : Grid K} (h : IsCart g) (p : Profile) (pos : Pos K) :
    g.geom.LookupOk p pos := by
  obtain ⟨⟨cg, hcg⟩, hc, _⟩ := h
  rw [hcg] at hc ⊢
  exact Geom.cart_lookupOk p cg hc pos

theorem isCart_new (cells : CellId) (lim : Limits K) (hc : CellsOk cells) :
    IsCart (Grid.newCart cells lim) := ⟨⟨_, rfl⟩, hc, rfl, rfl⟩

/-- **C06.** `add_value` on a Cartesian grid never panics, keeps the geometry and shape; outside
positions leave the grid unchanged; an inside position changes exactly its own cell, by `+ value` in
the data and `+ 1` in the weight. -/
theorem C06_addValue [LawfulArith K] (p : Profile) (g : Grid K) (hg : IsCart g) (pos : Pos K) (v : F K) :
    ∃ g', g.addValue p pos v = .ok g' ∧ g'.geom = g.geom ∧ IsCart g' ∧
      (¬ InBox g.geom.limits pos → g' = g) ∧
      (InBox g.geom.limits pos → ∃ c, g.cellId p pos = .ok (some c) ∧ InB g.geom.cells c ∧
        g'.st.data.get c = g.st.data.get c + v ∧ g'.st.weight.get c = g.st.weight.get c + 1 ∧
        ∀ c', c' ≠ c → g'.st.data.get c' = g.st.data.get c' ∧
          g'.st.weight.get c' = g.st.weight.get c') := by
  have hl := hg.lookupOk p pos
  refine ⟨_, Grid.addValue_eq hg.2.2 hl v, Grid.bumped_geom _ _ _, ?_, ?_, ?_⟩
  · refine ⟨?_, ?_, Grid.bumped_shaped hg.2.2 _ _⟩
    · rw [Grid.bumped_geom]; exact hg.1
    · rw [Grid.bumped_geom]; exact hg.2.1
  · obtain ⟨cg, hcg⟩ := hg.1
    intro hout
    have : g.geom.lookup p pos = none := by
      have h := Geom.cart_lookup_isSome p cg (by have := hg.2.1; rw [hcg] at this; exact this) pos
      rw [hcg] at hout ⊢
      cases hx : (Geom.cart cg).lookup p pos with
      | none => rfl
      | some c => rw [hx] at h; exact absurd (h.1 rfl) hout
    rw [this]; rfl
  · obtain ⟨cg, hcg⟩ := hg.1
    intro hin
    have h := Geom.cart_lookup_isSome p cg (by have := hg.2.1; rw [hcg] at this; exact this) pos
    rw [hcg] at hin
    obtain ⟨c, hc⟩ := Option.isSome_iff_exists.1 (h.2 hin)
    rw [← hcg] at hc
    refine ⟨c, ?_, hl.inB hc, ?_⟩
    · unfold Grid.cellId; rw [hl.cellId_eq, hc]
    · rw [hc]
      refine ⟨?_, ?_, fun c' hne => ⟨?_, ?_⟩⟩
      · simp [Grid.bumped, Store.bump]
      · simp [Grid.bumped, Store.bump]
      · simp [Grid.bumped, Store.bump, Function.update_of_ne hne]
      · simp [Grid.bumped, Store.bump, Function.update_of_ne hne]

/-- Witness for C06–C10: a fresh 3×3×3 grid over `[0,2]³` and a point inside it. -/
example : IsCart (Grid.newCart (fun _ => 3) (finLimits (fun _ => (0 : ℝ)) (fun _ => 2))) ∧
    InBox (finLimits (fun _ => (0 : ℝ)) (fun _ => 2)) (finPos (fun _ => 1)) :=
  ⟨isCart_new _ _ (fun _ => by norm_num), fun a => by simp [finLimits, finPos]⟩

/-- **C07.** Any history of `add_value` calls on a fresh Cartesian grid succeeds (both profiles, any
lawful rounding, any number of calls up to `2^53`); afterwards each cell's weight is the number of calls
looked up to it, its data is the sum of their values in call order (`0. + v₁ + v₂ + …`), and the counts
of all cells add up to the number of calls with an inside position. -/
theorem C07_history [LawfulArith K] (p : Profile) (cells : CellId) (lim : Limits K) (hc : CellsOk cells)
    (l : Adds K) (hlen : l.length ≤ 2 ^ 53) :
    ∃ g', (Grid.newCart cells lim).addAll p l = .ok g' ∧
      (∀ c, InB cells c →
        g'.st.weight.get c =
          F.fin ((l.countP fun x => (Geom.cart (CartGeom.new cells lim)).lookup p x.1 = some c : ℕ) : K) ∧
        g'.st.data.get c =
          F.sum ((l.filter fun x => (Geom.cart (CartGeom.new cells lim)).lookup p x.1 = some c).map (·.2))) ∧
      ∑ c ∈ cellsOf cells, (l.countP fun x => (Geom.cart (CartGeom.new cells lim)).lookup p x.1 = some c)
        = (l.filter fun x => (CartGeom.new cells lim).isInside x.1).length := by
  have hg := isCart_new (K := K) cells lim hc
  have hok : ∀ x ∈ l, (Grid.newCart cells lim).geom.LookupOk p x.1 := fun x _ => hg.lookupOk p x.1
  obtain ⟨g', h1, _, _, h4⟩ := Grid.addAll_spec hg.2.2 l hok
  have hcount : ∀ c, (l.countP fun x => (Geom.cart (CartGeom.new cells lim)).lookup p x.1 = some c) =
      (hits p (Grid.newCart cells lim).geom l c).length := by
    intro c; unfold hits; rw [List.length_map, List.countP_eq_length_filter]; rfl
  refine ⟨g', h1, fun c _ => ⟨?_, (h4 c).1⟩, ?_⟩
  · rw [(h4 c).2]
    have hle : (hits p (Grid.newCart cells lim).geom l c).length ≤ 2 ^ 53 := by
      unfold hits; rw [List.length_map]; exact (List.length_filter_le _ _).trans hlen
    have := foldl_ones (K := K) 0 (hits p (Grid.newCart cells lim).geom l c).length (by omega)
    rw [hcount]
    simpa [Grid.newCart, Store.zeros, Arr.const, F.zero_def] using this
  · simp only [hcount]
    have := sum_hits p (Grid.newCart cells lim).geom l hok
    rw [show cellsOf cells = cellsOf (Grid.newCart cells lim).geom.cells from rfl, this]
    congr 1
    apply List.filter_congr
    intro x _
    have h := Geom.cart_lookup_isSome p (CartGeom.new cells lim) hc x.1
    rw [← CartGeom.isInside_iff] at h
    exact Bool.eq_iff_iff.2 h

section exact
variable [LawfulArith K] [ExactArith K]

/-- **C08.** Exact arithmetic: after a history of finite values and `divide_by_weight`, each cell with
`n ≥ 1` hits holds their arithmetic mean, which lies between any bounds of the values; every other cell
is NaN. -/
theorem C08_mean (p : Profile) (cells : CellId) (lim : Limits K) (hc : CellsOk cells)
    (l : List (Pos K × K)) :
    ∃ g' g'', (Grid.newCart cells lim).addAll p (l.map fun x => (x.1, F.fin x.2)) = .ok g' ∧
      g'.divideByWeight = .ok g'' ∧
      ∀ c, InB cells c →
        let vals : List K := (l.filter fun x => (Geom.cart (CartGeom.new cells lim)).lookup p x.1 = some c).map (·.2)
        (vals = [] → g''.st.data.get c = F.nan) ∧
        (vals ≠ [] → g''.st.data.get c = F.fin (vals.sum / (vals.length : K)) ∧
          ∀ lo hi, (∀ v ∈ vals, lo ≤ v ∧ v ≤ hi) →
            lo ≤ vals.sum / (vals.length : K) ∧ vals.sum / (vals.length : K) ≤ hi) := by
  have hg := isCart_new (K := K) cells lim hc
  set l' : Adds K := l.map fun x => (x.1, F.fin x.2) with hl'
  have hok : ∀ x ∈ l', (Grid.newCart cells lim).geom.LookupOk p x.1 := fun x _ => hg.lookupOk p x.1
  obtain ⟨g', h1, hgeo, hsh, h4⟩ := Grid.addAll_spec hg.2.2 l' hok
  obtain ⟨d, hd1, hd2, hd3⟩ := Arr.zipWith_same (· / ·) g'.st.data g'.st.weight (hsh.1.trans hsh.2.symm)
  refine ⟨g', { g' with st := { g'.st with data := d } }, h1, ?_, ?_⟩
  · unfold Grid.divideByWeight Store.divideByWeight
    rw [hd1]; rfl
  intro c hcB vals
  have hh : hits p (Grid.newCart cells lim).geom l' c = vals.map F.fin := by
    simp only [hits, hl', vals, List.filter_map, List.map_map]
    rfl
  have hin : InB g'.st.data.shape c := by rw [hsh.1, hgeo]; exact hcB
  have hval : d.get c = F.fin vals.sum / F.fin (vals.length : K) := by
    rw [hd3 c hin, (h4 c).1, (h4 c).2, hh, List.length_map]
    have e1 := foldl_fin (K := K) 0 vals
    have e2 := foldl_ones_exact (K := K) 0 vals.length
    rw [zero_add] at e1 e2
    change _ / _ = _
    rw [← e1, ← e2]; rfl
  constructor
  · intro hnil
    change d.get c = F.nan
    rw [hval, hnil]
    simp [F.div_fin, F.infTimes]
  · intro hne
    have hpos : (0 : K) < vals.length := by
      exact_mod_cast List.length_pos_iff.2 hne
    refine ⟨by change d.get c = _; rw [hval, F.ediv _ hpos.ne'], fun lo hi hb => ?_⟩
    have hsum : ∀ m : List K, (∀ v ∈ m, lo ≤ v ∧ v ≤ hi) →
        lo * m.length ≤ m.sum ∧ m.sum ≤ hi * m.length := by
      intro m
      induction m with
      | nil => simp
      | cons a m ih =>
        intro hm
        have h1 := ih (fun v hv => hm v (by simp [hv]))
        have h2 := hm a (by simp)
        simp only [List.sum_cons, List.length_cons, Nat.cast_add, Nat.cast_one, mul_add, mul_one]
        constructor <;> linarith [h1.1, h1.2, h2.1, h2.2]
    have := hsum vals hb
    exact ⟨(le_div_iff₀ hpos).2 this.1, (div_le_iff₀ hpos).2 this.2⟩

end exact

/-- **C09.** `insert` then `get_value`: positions of the same cell read the inserted value, positions of
other cells read what they read before, outside positions read NaN; nothing panics. -/
theorem C09_insert_get [LawfulArith K] (p : Profile) (g : Grid K) (hg : IsCart g) (pos q : Pos K)
    (v : F K) (hin : InBox g.geom.limits pos) :
    ∃ g' old new, g.insert p pos v = .ok g' ∧ g.getValue p q = .ok old ∧ g'.getValue p q = .ok new ∧
      (¬ InBox g.geom.limits q → new = F.nan) ∧
      (InBox g.geom.limits q → g.cellId p q = g.cellId p pos → new = v) ∧
      (InBox g.geom.limits q → g.cellId p q ≠ g.cellId p pos → new = old) := by
  have hl := hg.lookupOk p pos
  have hlq := hg.lookupOk p q
  obtain ⟨cg, hcg⟩ := hg.1
  have hcc : CellsOk cg.cells := by have := hg.2.1; rw [hcg] at this; exact this
  have hsp := Geom.cart_lookup_isSome p cg hcc pos
  have hsq := Geom.cart_lookup_isSome p cg hcc q
  rw [← hcg] at hsp hsq
  have hlim : cg.limits = g.geom.limits := by rw [hcg]; rfl
  rw [hlim] at hsp hsq
  obtain ⟨c, hc⟩ := Option.isSome_iff_exists.1 (hsp.2 hin)
  have hcb : InB g.st.data.shape c := by rw [hg.2.2.1]; exact hl.inB hc
  have hins : g.insert p pos v =
      .ok { g with st := { g.st with data :=
        { g.st.data with get := Function.update g.st.data.get c v } } } := by
    unfold Grid.insert Grid.cellId
    rw [hl.cellId_eq, hc, run_bind_ok]
    dsimp only
    rw [Arr.write_ok _ hcb]
    rfl
  refine ⟨_, (match g.geom.lookup p q with | none => F.nan | some d => g.st.data.get d),
    (match g.geom.lookup p q with | none => F.nan | some d => Function.update g.st.data.get c v d),
    hins, ?_, ?_, ?_, ?_, ?_⟩
  · unfold Grid.getValue Grid.cellId
    rw [hlq.cellId_eq, run_bind_ok]
    cases hd : g.geom.lookup p q with
    | none => rfl
    | some d =>
      have hdb : InB g.st.data.shape d := by rw [hg.2.2.1]; exact hlq.inB hd
      exact Arr.read_ok _ hdb
  · unfold Grid.getValue Grid.cellId
    rw [hlq.cellId_eq, run_bind_ok]
    cases hd : g.geom.lookup p q with
    | none => rfl
    | some d =>
      have hdb : InB g.st.data.shape d := by rw [hg.2.2.1]; exact hlq.inB hd
      dsimp only
      exact Arr.read_ok _ hdb
  · intro hout
    cases hd : g.geom.lookup p q with
    | none => rfl
    | some d => rw [hd] at hsq; exact absurd (hsq.1 rfl) hout
  · intro hq he
    unfold Grid.cellId at he
    rw [hlq.cellId_eq, hl.cellId_eq, hc] at he
    simp only [Except.ok.injEq] at he
    rw [he]
    simp
  · intro hq he
    unfold Grid.cellId at he
    rw [hlq.cellId_eq, hl.cellId_eq, hc] at he
    obtain ⟨d, hd⟩ := Option.isSome_iff_exists.1 (hsq.2 hq)
    rw [hd] at he ⊢
    have hne : d ≠ c := fun h => he (by rw [h])
    simp [Function.update_of_ne hne]

/-- **C10, weights.** Permuting the calls does not change any weight (any lawful rounding, up to `2^53`
calls); neither history panics. -/
theorem C10_weights_perm [LawfulArith K] (p : Profile) (cells : CellId) (lim : Limits K)
    (hc : CellsOk cells) (l l' : Adds K) (hperm : l.Perm l') (hlen : l.length ≤ 2 ^ 53) :
    ∃ g g', (Grid.newCart cells lim).addAll p l = .ok g ∧ (Grid.newCart cells lim).addAll p l' = .ok g' ∧
      ∀ c, InB cells c → g.st.weight.get c = g'.st.weight.get c := by
  obtain ⟨g, h1, h2, _⟩ := C07_history p cells lim hc l hlen
  obtain ⟨g', h1', h2', _⟩ := C07_history p cells lim hc l' (by rw [← hperm.length_eq]; exact hlen)
  refine ⟨g, g', h1, h1', fun c hcB => ?_⟩
  rw [(h2 c hcB).1, (h2' c hcB).1, hperm.countP_eq]

/-- **C10, data.** In exact arithmetic, permuting calls with finite values does not change the data
either, from any starting contents. -/
theorem C10_data_perm [LawfulArith K] [ExactArith K] (p : Profile) (cells : CellId) (lim : Limits K)
    (hc : CellsOk cells) (l l' : List (Pos K × K)) (hperm : l.Perm l') :
    ∃ g g', (Grid.newCart cells lim).addAll p (l.map fun x => (x.1, F.fin x.2)) = .ok g ∧
      (Grid.newCart cells lim).addAll p (l'.map fun x => (x.1, F.fin x.2)) = .ok g' ∧
      ∀ c, InB cells c → g.st.data.get c = g'.st.data.get c ∧ g.st.weight.get c = g'.st.weight.get c := by
  have hg := isCart_new (K := K) cells lim hc
  obtain ⟨g, h1, _, _, h4⟩ := Grid.addAll_spec (p := p) hg.2.2 (l.map fun x => (x.1, F.fin x.2))
    (fun x _ => hg.lookupOk p x.1)
  obtain ⟨g', h1', _, _, h4'⟩ := Grid.addAll_spec (p := p) hg.2.2 (l'.map fun x => (x.1, F.fin x.2))
    (fun x _ => hg.lookupOk p x.1)
  have hh : ∀ (m : List (Pos K × K)) c,
      hits p (Grid.newCart cells lim).geom (m.map fun x => (x.1, F.fin x.2)) c =
      ((m.filter fun x => (Grid.newCart cells lim).geom.lookup p x.1 = some c).map (·.2)).map F.fin := by
    intro m c
    simp only [hits, List.filter_map, List.map_map]
    rfl
  have hz : (Grid.newCart cells lim).st.data.get = fun _ => (F.fin 0 : F K) := rfl
  refine ⟨g, g', h1, h1', fun c _ => ⟨?_, ?_⟩⟩
  · rw [(h4 c).1, (h4' c).1, hh, hh, hz, foldl_fin, foldl_fin]
    rw [((hperm.filter _).map _).sum_eq]
  · rw [(h4 c).2, (h4' c).2, hh, hh]
    simp only [List.length_map]
    rw [(hperm.filter _).length_eq]

/-- **C11 (partial).** The full property: `new_zeros` keeps the geometry and returns zero data *and zero
weights*.  Proved: geometry, zero data of the constructed shape.  Missing: zero weights — false of the
code for a used grid (`C11_false`): the weights are copied (`C11_weights_kept`). -/
theorem C11_newZeros_partial (g : Grid K) :
    g.newZeros.geom = g.geom ∧ g.newZeros.st.data.shape = g.geom.cells ∧
      (∀ c, g.newZeros.st.data.get c = 0) ∧
      ((∀ c, InB g.geom.cells c → g.st.weight.get c = 0) →
        ∀ c, InB g.geom.cells c → g.newZeros.st.weight.get c = 0) :=
  ⟨rfl, rfl, fun _ => rfl, fun h => h⟩

/-- `new_zeros` copies the weights. -/
theorem C11_weights_kept (g : Grid K) : g.newZeros.st.weight = g.st.weight := rfl

/-- **C11 is false of the code**, in every lawful arithmetic: add one value to a fresh one-cell grid over
`[0,1]³`; the `new_zeros` of the result has weight 1 in its cell. -/
theorem C11_false [LawfulArith K] (p : Profile) :
    ∃ g' : Grid K, (Grid.newCart (fun _ => 1) (finLimits (fun _ => 0) (fun _ => 1))).addValue p
        (finPos fun _ => 0) 1 = .ok g' ∧
      g'.newZeros.st.weight.get (fun _ => 0) = F.fin 1 ∧ g'.newZeros.st.data.get (fun _ => 0) = F.fin 0 := by
  have hin : InBox (finLimits (fun _ => (0 : K)) (fun _ => 1)) (finPos fun _ => 0) := by
    intro a; simp [finLimits, finPos]
  obtain ⟨g', h1, _, _, _, h5⟩ := C06_addValue p (Grid.newCart (fun _ => 1)
    (finLimits (fun _ => (0 : K)) (fun _ => 1))) (isCart_new _ _ (fun _ => by norm_num)) (finPos fun _ => 0) 1
  obtain ⟨c, _, hcb, _, hw, _⟩ := h5 hin
  have hc0 : c = fun _ => 0 := by
    funext a; have := hcb a; simp [Grid.newCart, CartGeom.new, Geom.cells] at this; exact this
  subst hc0
  refine ⟨g', h1, ?_, rfl⟩
  change g'.st.weight.get _ = _
  rw [hw]
  change (0 : F K) + 1 = _
  rw [F.zero_def, F.one_def, F.add_fin, zero_add, F.rnd_one]

end Up4
