import Verif.Model.Hdf5
import Verif.Props.Buffer
import Verif.Props.Sorting
import Verif.RealArith

set_option linter.unusedSectionVars false

/-! # C59, C60: what the managers return is what is stored in the file -/

namespace Up4
open F
open Selector (at')

variable {K : Type} [Field K] [LinearOrder K] [IsStrictOrderedRing K] [FloorRing K] [Arith K]

/-! ### Specification -/

/-- The timestep holds exactly the contents of the group (densities are 1 if the group has none). -/
def TGroup.Holds (g : TGroup K) (ts : Timestep K) : Prop :=
  g.time = some ts.time ∧ g.position = some ts.position ∧ g.velocity = some ts.velocity ∧ g.radius = some ts.radius ∧
  g.ids = some ts.particleid ∧ g.ppcloud = some ts.clouds ∧ g.ptype = some ts.ptype ∧
  (∀ d, g.density = some d → ts.density = d) ∧
  (g.density = none → ts.density.length = ts.radius.length ∧ ∀ x ∈ ts.density, x = 1)

/-- A group of a time-based file with every dataset but the density, which is optional. -/
def TGroup.Complete (g : TGroup K) : Prop :=
  g.time.isSome ∧ g.position.isSome ∧ g.velocity.isSome ∧ g.radius.isSome ∧ g.ids.isSome ∧ g.ppcloud.isSome ∧ g.ptype.isSome

/-- Entry `t` of an optional dataset, 0 if the dataset is absent. -/
def entryOr (l : Option (List (F K))) (t : ℕ) : Option (F K) :=
  match l with
  | some l => l[t]?
  | none => some 0

/-- The timestep holds row `t` of every particle of the file: entry `i` of each attribute belongs to `particle i`. The time is that of `particle 0`;
the id is the number of the particle, the cloud size is 1, and absent radii, densities and types are 0. -/
def HoldsRow (groups : List (PGroup K)) (np t : ℕ) (ts : Timestep K) : Prop :=
  (∀ g, groups[0]? = some g → g.time.bind (·[t]?) = some ts.time) ∧
  ts.position.length = np ∧ ts.velocity.length = np ∧ ts.radius.length = np ∧ ts.particleid.length = np ∧ ts.clouds.length = np ∧
  ts.density.length = np ∧ ts.ptype.length = np ∧
  ∀ i < np, ∀ g, groups[i]? = some g →
    ts.position[i]? = g.position.bind (·[t]?) ∧ ts.velocity[i]? = g.velocity.bind (·[t]?) ∧
    ts.radius[i]? = entryOr g.radius t ∧ ts.density[i]? = entryOr g.density t ∧ ts.ptype[i]? = entryOr g.ptype t ∧
    ts.particleid[i]? = some (F.ofNat i) ∧ ts.clouds[i]? = some 1

/-- A dataset that, if present, has at least `n` rows. -/
def LongEnough {α : Type} (n : ℕ) (l : Option (List α)) : Prop := ∀ x, l = some x → n ≤ x.length

/-- The file has all its particles, each with at least `n` rows in every dataset it has; positions, velocities, and the time of particle 0 are there. -/
def PComplete (groups : List (PGroup K)) (n np : ℕ) : Prop :=
  1 ≤ np ∧ np ≤ groups.length ∧ (∀ g, groups[0]? = some g → g.time.isSome ∧ LongEnough n g.time) ∧
  ∀ g ∈ groups.take np, g.position.isSome ∧ g.velocity.isSome ∧ LongEnough n g.position ∧ LongEnough n g.velocity ∧
    LongEnough n g.radius ∧ LongEnough n g.density ∧ LongEnough n g.ptype

/-- A file whose datasets are complete for `n` timesteps. -/
def H5.Complete (h : H5 K) : Prop :=
  match h.kind with
  | .tdata => h.n ≤ h.tgroups.length ∧ ∀ g ∈ h.tgroups.take h.n, g.Complete
  | .pdata => PComplete h.pgroups h.n h.np

/-- The timestep is the one stored under number `t` in the file. -/
def H5.Stored (h : H5 K) (t : ℕ) (ts : Timestep K) : Prop :=
  match h.kind with
  | .tdata => ∃ g, h.tgroups[t]? = some g ∧ g.Holds ts
  | .pdata => HoldsRow h.pgroups h.np t ts

/-! ### Reading a group -/

theorem tRead_ok (groups : List (TGroup K)) (t : ℕ) (g : TGroup K) (hg : groups[t]? = some g) (hc : g.Complete) :
    ∃ ts, tRead groups t = .ok ts ∧ g.Holds ts := by
  obtain ⟨time, position, velocity, radius, density, ppcloud, ptype, ids⟩ := g
  obtain ⟨h1, h2, h3, h4, h5, h6, h7⟩ := hc
  simp only [Option.isSome_iff_exists] at h1 h2 h3 h4 h5 h6 h7
  obtain ⟨time, rfl⟩ := h1
  obtain ⟨position, rfl⟩ := h2
  obtain ⟨velocity, rfl⟩ := h3
  obtain ⟨radius, rfl⟩ := h4
  obtain ⟨ids, rfl⟩ := h5
  obtain ⟨ppcloud, rfl⟩ := h6
  obtain ⟨ptype, rfl⟩ := h7
  cases density with
  | some d =>
    refine ⟨⟨time, position, velocity, radius, ids, ppcloud, d, ptype⟩, ?_, rfl, rfl, rfl, rfl, rfl, rfl, rfl, ?_, ?_⟩
    · unfold tRead; rw [hg]; rfl
    · rintro d' h; cases h; rfl
    · intro h; cases h
  | none =>
    refine ⟨⟨time, position, velocity, radius, ids, ppcloud, radius.map fun _ => (1 : F K), ptype⟩, ?_, rfl, rfl, rfl, rfl, rfl, rfl, rfl, ?_, ?_⟩
    · unfold tRead; rw [hg]; rfl
    · rintro d' h; cases h
    · intro _; simp

/-! ### The loops that fill the buffer -/

theorem bufFill {T : Type} (read : ℕ → Run T) (steps : ℕ → T) (lo : ℕ) (data : ℕ → T) : ∀ m, (∀ k < m, read (lo + k) = .ok (steps (lo + k))) →
    (List.range' lo m).foldlM (fun data t => do
      let x ← read t
      bufSet data (t - lo) x) data =
    (if m ≤ BUFFERSIZE then .ok (fun i => if i < m then steps (lo + i) else data i) else .error .index : Run (ℕ → T)) := by
  intro m
  induction m with
  | zero => intro _; simp [run_pure]
  | succ m ih =>
    intro h
    rw [List.range'_concat, List.foldlM_append, ih (fun k hk => h k (by omega))]
    by_cases hm : m ≤ BUFFERSIZE
    · rw [if_pos hm, run_bind_ok]
      simp only [List.foldlM_cons, List.foldlM_nil, Nat.one_mul]
      rw [h m (by omega), run_bind_ok]
      have e : lo + m - lo = m := by omega
      rw [e]
      unfold bufSet
      by_cases hm' : m + 1 ≤ BUFFERSIZE
      · rw [if_pos (by omega), if_pos hm', run_bind_ok, run_pure]
        congr 1
        funext i
        by_cases hi : i = m
        · subst hi; simp
        · rw [Function.update_of_ne hi]
          by_cases hi' : i < m
          · rw [if_pos hi', if_pos (by omega)]
          · rw [if_neg hi', if_neg (by omega)]
      · rw [if_neg (by omega), if_neg hm', run_bind_error]
    · rw [if_neg hm, run_bind_error, if_neg (by omega)]

/-- `update` of a time-based manager is the loading of a window of the stored timesteps. -/
theorem tUpdate_eq (p : Profile) (groups : List (TGroup K)) (n : ℕ) (hn : n < usizeMod) (steps : ℕ → Timestep K)
    (hr : ∀ t < n, tRead groups t = .ok (steps t)) (b : Buf (Timestep K)) (lo hi : ℕ) :
    tUpdate p groups n b lo hi = b.load p .tdata steps n lo hi := by
  unfold tUpdate Buf.load
  dsimp only
  have hle : (if hi ≥ n then n else hi) ≤ n := by split_ifs <;> omega
  generalize (if hi ≥ n then n else hi) = hi' at hle
  by_cases h : lo ≤ hi'
  · rw [if_pos h, usub_of_le p h (by omega), run_bind_ok, bufFill (tRead groups) steps lo b.data (hi' - lo) (fun k hk => hr _ (by omega))]
    by_cases hs : hi' - lo ≤ BUFFERSIZE
    · rw [if_pos hs, if_pos hs, run_bind_ok]; rfl
    · rw [if_neg hs, if_neg hs, run_bind_error]
  · rw [if_neg h]
    have e : hi' - lo = 0 := by omega
    cases p with
    | debug => simp only [usub, if_neg h, run_bind_error]
    | release =>
      simp only [usub, run_bind_ok, e, List.range'_zero, List.foldlM_nil]
      rfl

/-! ### Particle-based files -/

/-- The value read from a dataset of `particle i` at row `t`. -/
def pVal {α : Type} (groups : List (PGroup K)) (field : PGroup K → Option (List α)) (i t : ℕ) (dflt : α) : α :=
  (((groups[i]?).bind field).bind (·[t]?)).getD dflt

/-- The timestep made of row `t` of every particle. -/
def pSpec (groups : List (PGroup K)) (np t : ℕ) : Timestep K :=
  ⟨pVal groups PGroup.time 0 t 0,
   (List.range np).map fun i => pVal groups PGroup.position i t (fun _ => 0),
   (List.range np).map fun i => pVal groups PGroup.velocity i t (fun _ => 0),
   (List.range np).map fun i => pVal groups PGroup.radius i t 0,
   (List.range np).map fun i => F.ofNat i,
   (List.range np).map fun _ => 1,
   (List.range np).map fun i => pVal groups PGroup.density i t 0,
   (List.range np).map fun i => pVal groups PGroup.ptype i t 0⟩

theorem sliceOf_ok {α : Type} {l : List α} {lo hi : ℕ} (h : lo ≤ hi) (h' : hi ≤ l.length) :
    sliceOf l lo hi = .ok ((l.drop lo).take (hi - lo)) := if_pos ⟨h, h'⟩

theorem slice_get {α : Type} (l : List α) (lo hi k : ℕ) (h : k < hi - lo) : ((l.drop lo).take (hi - lo))[k]? = l[lo + k]? := by
  rw [List.getElem?_take_of_lt h, List.getElem?_drop]

/-- The column the loop reads for one particle. -/
def pCol (groups : List (PGroup K)) (lo hi i : ℕ) : PColumn K :=
  let col {α : Type} (field : PGroup K → Option (List α)) (j : ℕ) (dflt : α) : List α :=
    (List.range (hi - lo)).map fun k => pVal groups field j (lo + k) dflt
  ⟨col PGroup.time 0 0, col PGroup.position i (fun _ => 0), col PGroup.velocity i (fun _ => 0), col PGroup.radius i 0, col PGroup.ptype i 0,
    col PGroup.density i 0, List.replicate (hi - lo) (F.ofNat i)⟩

theorem slice_map {α : Type} (groups : List (PGroup K)) (field : PGroup K → Option (List α)) (i lo hi : ℕ) (dflt : α) (g : PGroup K)
    (hg : groups[i]? = some g) (l : List α) (hl : field g = some l) (h : lo ≤ hi) (h' : hi ≤ l.length) :
    sliceOf l lo hi = .ok ((List.range (hi - lo)).map fun k => pVal groups field i (lo + k) dflt) := by
  rw [sliceOf_ok h h']
  congr 1
  apply List.ext_getElem?
  intro k
  by_cases hk : k < hi - lo
  · rw [slice_get l lo hi k hk, List.getElem?_map, List.getElem?_range hk, Option.map_some]
    unfold pVal
    rw [hg, Option.bind_some, hl, Option.bind_some, List.getElem?_eq_getElem (by omega), Option.getD_some]
  · rw [List.getElem?_eq_none (by simp; omega), List.getElem?_eq_none (by simp; omega)]

theorem sliceOr_map (groups : List (PGroup K)) (field : PGroup K → Option (List (F K))) (i lo hi n : ℕ) (g : PGroup K)
    (hg : groups[i]? = some g) (hl : LongEnough n (field g)) (h : lo ≤ hi) (h' : hi ≤ n) :
    sliceOr (field g) lo hi = .ok ((List.range (hi - lo)).map fun k => pVal groups field i (lo + k) 0) := by
  cases hf : field g with
  | some l => exact slice_map groups field i lo hi 0 g hg l hf h (le_trans h' (hl l hf))
  | none =>
    unfold sliceOr
    dsimp only
    congr 1
    apply List.ext_getElem?
    intro k
    by_cases hk : k < hi - lo
    · rw [List.getElem?_replicate, if_pos hk, List.getElem?_map, List.getElem?_range hk, Option.map_some]
      unfold pVal
      rw [hg, Option.bind_some, hf]; rfl
    · rw [List.getElem?_eq_none (by simp; omega), List.getElem?_eq_none (by simp; omega)]

theorem pColumn_ok (groups : List (PGroup K)) (n np lo hi i : ℕ) (hc : PComplete groups n np) (h : lo ≤ hi) (h' : hi ≤ n) (hi' : i < np) :
    pColumn groups lo hi i = .ok (pCol groups lo hi i) := by
  obtain ⟨h1, h2, h3, h4⟩ := hc
  have hg : groups[i]? = some groups[i] := List.getElem?_eq_getElem (by omega)
  have hg0 : groups[0]? = some groups[0] := List.getElem?_eq_getElem (by omega)
  generalize groups[i] = g at hg
  generalize groups[0] = g0 at hg0
  obtain ⟨ht, htl⟩ := h3 g0 hg0
  obtain ⟨k1, k2, k3, k4, k5, k6, k7⟩ := h4 g (by
    rw [List.mem_take_iff_getElem]
    obtain ⟨hlt, e⟩ := List.getElem?_eq_some_iff.1 hg
    exact ⟨i, by omega, e⟩)
  rw [Option.isSome_iff_exists] at ht k1 k2
  obtain ⟨tl, ht⟩ := ht
  obtain ⟨pl, hp⟩ := k1
  obtain ⟨vl, hv⟩ := k2
  unfold pColumn
  rw [hg]
  simp only [need, run_bind_ok, hp, hv]
  rw [slice_map groups PGroup.position i lo hi (fun _ => 0) g hg pl hp h (le_trans h' (k3 pl hp)), run_bind_ok,
    slice_map groups PGroup.velocity i lo hi (fun _ => 0) g hg vl hv h (le_trans h' (k4 vl hv)), run_bind_ok,
    sliceOr_map groups PGroup.radius i lo hi n g hg k5 h h', run_bind_ok,
    sliceOr_map groups PGroup.ptype i lo hi n g hg k7 h h', run_bind_ok,
    sliceOr_map groups PGroup.density i lo hi n g hg k6 h h', run_bind_ok, hg0]
  simp only [run_bind_ok, ht]
  rw [slice_map groups PGroup.time 0 lo hi 0 g0 hg0 tl ht h (le_trans h' (htl tl ht)), run_bind_ok]
  rfl

theorem pColumns_ok (groups : List (PGroup K)) (n np lo hi : ℕ) (hc : PComplete groups n np) (h : lo ≤ hi) (h' : hi ≤ n) :
    pColumns groups np lo hi = .ok ((List.range np).map (pCol groups lo hi)) := by
  unfold pColumns
  have := emit_run (List.range np) (fun i => do pure [← pColumn groups lo hi i]) (fun i => [pCol groups lo hi i])
    (fun i hi' => by rw [pColumn_ok groups n np lo hi i hc h h' (by simpa using hi')]; rfl) []
  rw [List.nil_append, ← List.map_eq_flatMap] at this
  rw [← this]
  congr 1
  funext acc i
  cases pColumn groups lo hi i <;> rfl

theorem pRow_ok (groups : List (PGroup K)) (np lo hi k : ℕ) (hnp : 1 ≤ np) (hk : k < hi - lo) :
    pRow ((List.range np).map (pCol groups lo hi)) k = .ok (pSpec groups np (lo + k)) := by
  unfold pRow
  rw [at_some (by simp; omega), run_bind_ok]
  have e : ((List.range np).map (pCol groups lo hi))[0]'(by simp; omega) = pCol groups lo hi 0 := by simp
  rw [e]
  have gd {α : Type} (f : ℕ → α) (d : α) : ((List.range (hi - lo)).map f).getD k d = f k := by
    rw [getD_lt d (by simpa using hk)]; simp
  have et : at' (pCol groups lo hi 0).time k = .ok (pVal groups PGroup.time 0 (lo + k) 0) := by
    rw [at_some (by simpa [pCol] using hk)]; simp [pCol]
  rw [et, run_bind_ok]
  simp only [List.map_map]
  unfold pSpec
  have er : ∀ i, (List.replicate (hi - lo) (F.ofNat i : F K)).getD k 0 = F.ofNat i := by
    intro i; rw [getD_lt 0 (by simpa using hk)]; simp
  simp only [pCol, Function.comp_def, gd, er]
  rfl

theorem pUpdate_eq (p : Profile) (groups : List (PGroup K)) (n np : ℕ) (hn : n < usizeMod) (hc : PComplete groups n np)
    (b : Buf (Timestep K)) (lo hi : ℕ) :
    pUpdate p groups n np b lo hi = b.load p .pdata (pSpec groups np) n lo hi := by
  unfold pUpdate Buf.load
  dsimp only
  have hle : (if hi ≥ n then n else hi) ≤ n := by split_ifs <;> omega
  generalize (if hi ≥ n then n else hi) = hi' at hle
  by_cases h : lo ≤ hi'
  · rw [if_pos h, usub_of_le p h (by omega), run_bind_ok, if_neg (by omega), pColumns_ok groups n np lo hi' hc h hle, run_bind_ok]
    have := bufFill (fun k => pRow ((List.range np).map (pCol groups lo hi')) k) (fun k => pSpec groups np (lo + k)) 0 b.data (hi' - lo)
      (fun k hk => by rw [Nat.zero_add]; exact pRow_ok groups np lo hi' k hc.1 hk)
    rw [← List.range_eq_range'] at this
    simp only [Nat.sub_zero, Nat.zero_add] at this
    rw [this]
    by_cases hs : hi' - lo ≤ BUFFERSIZE
    · rw [if_pos hs, if_pos hs, run_bind_ok]; rfl
    · rw [if_neg hs, if_neg hs, run_bind_error]
  · rw [if_neg h]
    cases p with
    | debug => simp only [usub, if_neg h, run_bind_error]
    | release =>
      simp only [usub, run_bind_ok]
      rw [if_pos (by omega)]

theorem pSpec_holds (groups : List (PGroup K)) (n np t : ℕ) (hc : PComplete groups n np) (ht : t < n) :
    HoldsRow groups np t (pSpec groups np t) := by
  obtain ⟨h1, h2, h3, h4⟩ := hc
  refine ⟨?_, by simp [pSpec], by simp [pSpec], by simp [pSpec], by simp [pSpec], by simp [pSpec], by simp [pSpec], by simp [pSpec], ?_⟩
  · intro g hg
    obtain ⟨hs, hl⟩ := h3 g hg
    obtain ⟨l, hl'⟩ := Option.isSome_iff_exists.1 hs
    have : t < l.length := lt_of_lt_of_le ht (hl l hl')
    simp [pSpec, pVal, hg, hl', List.getElem?_eq_getElem this]
  · intro i hi g hg
    obtain ⟨k1, k2, k3, k4, k5, k6, k7⟩ := h4 g (by
      rw [List.mem_take_iff_getElem]
      obtain ⟨hlt, e⟩ := List.getElem?_eq_some_iff.1 hg
      exact ⟨i, by omega, e⟩)
    obtain ⟨pl, hp⟩ := Option.isSome_iff_exists.1 k1
    obtain ⟨vl, hv⟩ := Option.isSome_iff_exists.1 k2
    have e1 : t < pl.length := lt_of_lt_of_le ht (k3 pl hp)
    have e2 : t < vl.length := lt_of_lt_of_le ht (k4 vl hv)
    have opt : ∀ field : PGroup K → Option (List (F K)), LongEnough n (field g) →
        some (pVal groups field i t 0) = entryOr (field g) t := by
      intro field hf
      unfold pVal entryOr
      rw [hg, Option.bind_some]
      cases e : field g with
      | none => rfl
      | some l =>
        have : t < l.length := lt_of_lt_of_le ht (hf l e)
        simp [List.getElem?_eq_getElem this]
    have mp {α : Type} (f : ℕ → α) : ((List.range np).map f)[i]? = some (f i) := by
      rw [List.getElem?_map, List.getElem?_range hi]; rfl
    unfold pSpec
    simp only [mp]
    refine ⟨?_, ?_, opt _ k5, opt _ k6, opt _ k7, trivial, trivial⟩
    · simp [pVal, hg, hp, List.getElem?_eq_getElem e1]
    · simp [pVal, hg, hv, List.getElem?_eq_getElem e2]

/-! ### The manager on the file -/

/-- `update` on a complete file is the loading of a window of what is stored (the operation the model of the managers in `Verif/Model/Data.lean`
is built on). -/
theorem H5.update_eq (p : Profile) (h : H5 K) (hn : h.n < usizeMod) (hc : h.Complete) :
    ∃ steps : ℕ → Timestep K, (∀ t < h.n, h.Stored t (steps t)) ∧
      ∀ (b : Buf (Timestep K)) (lo hi : ℕ), h.update p b lo hi = b.load p h.kind steps h.n lo hi := by
  obtain ⟨kind, tg, pg, n, np⟩ := h
  cases kind with
  | tdata =>
    obtain ⟨h1, h2⟩ := hc
    have hx : ∀ t, ∃ ts : Timestep K, t < n → tRead tg t = .ok ts ∧ ∃ g, tg[t]? = some g ∧ g.Holds ts := by
      intro t
      by_cases ht : t < n
      · have hlen : t < tg.length := lt_of_lt_of_le ht h1
        obtain ⟨ts, e, hh⟩ := tRead_ok tg t tg[t] (List.getElem?_eq_getElem hlen) (h2 _ (by
          rw [List.mem_take_iff_getElem]; exact ⟨t, by simp only; omega, rfl⟩))
        exact ⟨ts, fun _ => ⟨e, _, List.getElem?_eq_getElem hlen, hh⟩⟩
      · exact ⟨⟨0, [], [], [], [], [], [], []⟩, fun h => absurd h ht⟩
    choose steps hs using hx
    refine ⟨steps, fun t ht => (hs t ht).2, fun b lo hi => ?_⟩
    exact tUpdate_eq p tg n hn steps (fun t ht => (hs t ht).1) b lo hi
  | pdata =>
    exact ⟨pSpec pg np, fun t ht => pSpec_holds pg n np t hc ht, fun b lo hi => pUpdate_eq p pg n np hn hc b lo hi⟩

theorem H5.get_ok [LawfulArith K] (p : Profile) (h : H5 K) (hn : h.n ≤ 2 ^ 50) (steps : ℕ → Timestep K)
    (hu : ∀ (b : Buf (Timestep K)) (lo hi : ℕ), h.update p b lo hi = b.load p h.kind steps h.n lo hi)
    (b : Buf (Timestep K)) (hb : b.Good steps h.n) (t : ℕ) (ht : t < h.n) : ∃ b', h.get p b t = .ok (b', steps t) ∧ b'.Good steps h.n := by
  obtain ⟨b', e, hb', _⟩ := Dm.get_ok (K := K) p (⟨h.kind, steps, h.n, b, [], []⟩ : Dm (Timestep K)) ⟨hb, rfl, hn⟩ t ht
  refine ⟨b', ?_, hb'⟩
  unfold H5.get
  unfold Dm.get at e
  dsimp only at e
  obtain ⟨last, e1, e⟩ := run_bind_inv e
  obtain ⟨b1, e2, e⟩ := run_bind_inv e
  obtain ⟨i, e3, e⟩ := run_bind_inv e
  obtain ⟨x, e4, e⟩ := run_bind_inv e
  have hr : h.refresh p b t last = .ok b1 := by
    rw [← e2]
    unfold H5.refresh Dm.refresh
    simp only [hu]
  have e5 := Except.ok.inj e
  simp only [Prod.mk.injEq, Dm.mk.injEq] at e5
  obtain ⟨⟨_, _, _, eb, _⟩, ex⟩ := e5
  subst eb ex
  rw [e1, run_bind_ok, hr, run_bind_ok, e3, run_bind_ok, e4, run_bind_ok]
  rfl

theorem H5.gets_ok [LawfulArith K] (p : Profile) (h : H5 K) (hn : h.n ≤ 2 ^ 50) (steps : ℕ → Timestep K)
    (hu : ∀ (b : Buf (Timestep K)) (lo hi : ℕ), h.update p b lo hi = b.load p h.kind steps h.n lo hi) :
    ∀ (ts : List ℕ) (b : Buf (Timestep K)), b.Good steps h.n → (∀ t ∈ ts, t < h.n) → h.gets p b ts = .ok (ts.map steps) := by
  intro ts
  induction ts with
  | nil => intro b _ _; rfl
  | cons t ts ih =>
    intro b hb hts
    obtain ⟨b', e', hb'⟩ := h.get_ok p hn steps hu b hb t (hts t (by simp))
    rw [H5.gets, e', run_bind_ok]
    dsimp only
    rw [ih b' hb' (fun t ht => hts t (by simp [ht])), run_bind_ok]
    rfl

/-- **C59.** For both kinds of file, both build profiles and every sequence of requests: opening a complete file of `1 … 2^50` timesteps and reading
never panics, and the answer to the request for timestep `t` is the data stored under number `t` in the file. -/
theorem C59_stored [LawfulArith K] (p : Profile) (h : H5 K) (hn : 1 ≤ h.n) (hn' : h.n ≤ 2 ^ 50) (hc : h.Complete) (dflt : Timestep K)
    (ts : List ℕ) (hts : ∀ t ∈ ts, t < h.n) :
    ∃ l, h.session p dflt ts = .ok l ∧ List.Forall₂ h.Stored ts l := by
  obtain ⟨steps, hs, hu⟩ := h.update_eq p (by unfold usizeMod; omega) hc
  obtain ⟨b, e, hb, _⟩ := Buf.load_good p h.kind steps h.n ⟨fun _ => dflt, 0, 0, BUFFERSIZE⟩ 0 BUFFERSIZE (by norm_num [BUFFERSIZE]) (by omega) (by omega)
  refine ⟨ts.map steps, ?_, ?_⟩
  · unfold H5.session H5.openBuf
    rw [hu, e, run_bind_ok, h.gets_ok p hn' steps hu ts b hb hts]
  · rw [List.forall₂_map_right_iff]
    rw [List.forall₂_same]
    exact fun t ht => hs t (hts t ht)

/-- A file that is not complete for its number of timesteps cannot be opened: **C59, rejection** for a time-based file of at most `BUFFERSIZE`
timesteps with a timestep that lacks a dataset, in both profiles. -/
theorem C59_reject (p : Profile) (h : H5 K) (hk : h.kind = .tdata) (hn : h.n ≤ BUFFERSIZE) (dflt : Timestep K) (ts : List ℕ) (t : ℕ) (ht : t < h.n)
    (hb : ∀ g, h.tgroups[t]? = some g → ¬ g.Complete) :
    ∃ e, h.session p dflt ts = .error e := by
  have key : ∀ (m : ℕ) (data : ℕ → Timestep K), t < m → ∃ e, (List.range' 0 m).foldlM (fun data t => do
      let x ← tRead h.tgroups t
      bufSet data (t - 0) x) data = (.error e : Run (ℕ → Timestep K)) := by
    intro m
    have bad : ∃ e, tRead h.tgroups t = .error e := by
      cases hx : tRead h.tgroups t with
      | error e => exact ⟨e, rfl⟩
      | ok x =>
        exfalso
        unfold tRead at hx
        obtain ⟨g, e1, hx⟩ := run_bind_inv hx
        have hg : h.tgroups[t]? = some g := by
          revert e1; unfold need; split
          · intro h; cases h; assumption
          · intro h; cases h
        refine hb g hg ?_
        have ok : ∀ {α : Type} {o : Option α} {a : α}, need o = .ok a → o.isSome := by
          intro α o a h; cases o <;> first | rfl | cases h
        obtain ⟨_, a1, hx⟩ := run_bind_inv hx
        obtain ⟨_, a2, hx⟩ := run_bind_inv hx
        obtain ⟨_, a3, hx⟩ := run_bind_inv hx
        dsimp only at hx
        obtain ⟨_, a4, hx⟩ := run_bind_inv hx
        obtain ⟨_, a5, hx⟩ := run_bind_inv hx
        obtain ⟨_, a6, hx⟩ := run_bind_inv hx
        obtain ⟨_, a7, hx⟩ := run_bind_inv hx
        exact ⟨ok a5, ok a1, ok a2, ok a3, ok a6, ok a4, ok a7⟩
    obtain ⟨e0, bad⟩ := bad
    induction m with
    | zero => intro _ h; omega
    | succ m ih =>
      intro data hm
      rw [List.range'_concat, List.foldlM_append]
      by_cases hm' : t < m
      · obtain ⟨e, he⟩ := ih data hm'
        exact ⟨e, by rw [he, run_bind_error]⟩
      · have : m = t := by omega
        subst this
        cases hx : List.foldlM (m := Run) (fun data t => do
          let x ← tRead h.tgroups t
          bufSet data (t - 0) x) data (List.range' 0 m) with
        | error e => exact ⟨e, by rw [run_bind_error]⟩
        | ok d =>
          refine ⟨e0, ?_⟩
          rw [run_bind_ok]
          simp only [List.foldlM_cons, List.foldlM_nil, Nat.zero_add, Nat.one_mul]
          rw [bad, run_bind_error, run_bind_error]
  unfold H5.session H5.openBuf H5.update
  rw [hk]
  dsimp only
  unfold tUpdate
  have e : (if BUFFERSIZE ≥ h.n then h.n else BUFFERSIZE) = h.n := if_pos hn
  dsimp only
  rw [e, usub_of_le p (Nat.zero_le _) (by have : BUFFERSIZE < usizeMod := by norm_num [BUFFERSIZE, usizeMod]
                                          omega), run_bind_ok]
  obtain ⟨e', he⟩ := key (h.n - 0) (fun _ => dflt) (by omega)
  rw [he]
  exact ⟨e', rfl⟩

/-! ### Concrete files -/

/-- One timestep of two particles, without densities. -/
noncomputable def twoGroup (t : ℝ) : TGroup ℝ :=
  ⟨some (fin t), some [fun _ => fin t, fun _ => fin (t + 1)], some [fun _ => 0, fun _ => 1], some [1, fin 2], none, some [1, 1], some [1, fin 2], some [1, fin 2]⟩

/-- A time-based file with three timesteps. -/
noncomputable def demoT : H5 ℝ := ⟨.tdata, [twoGroup 0, twoGroup 1, twoGroup 2], [], 3, 2⟩

theorem demoT_complete : demoT.Complete := by
  refine ⟨le_refl 3, ?_⟩
  intro g hg
  simp only [demoT, List.take_succ_cons, List.take_zero, List.mem_cons, List.not_mem_nil, or_false] at hg
  rcases hg with rfl | rfl | rfl <;> exact ⟨rfl, rfl, rfl, rfl, rfl, rfl, rfl⟩

/-- A particle with three rows, types but no densities. -/
noncomputable def threeRows (x : ℝ) : PGroup ℝ :=
  ⟨some [0, 1, fin 2], some [fun _ => fin x, fun _ => fin (x + 1), fun _ => fin (x + 2)], some [fun _ => 0, fun _ => 1, fun _ => fin 2], some [1, 1, 1], none,
    some [1, 1, 1], some [1, 1, 1]⟩

/-- A particle-based file with two particles and three timesteps. -/
noncomputable def demoP : H5 ℝ := ⟨.pdata, [], [threeRows 0, threeRows 10], 3, 2⟩

theorem three_long {α : Type} (a b c : α) : LongEnough 3 (some [a, b, c]) := by
  intro x h; cases h; exact le_refl 3

theorem demoP_complete : demoP.Complete := by
  refine ⟨by norm_num [demoP], le_refl 2, ?_, ?_⟩
  · intro g hg
    cases hg
    exact ⟨rfl, three_long _ _ _⟩
  · intro g hg
    simp only [demoP, List.take_succ_cons, List.take_zero, List.mem_cons, List.not_mem_nil, or_false] at hg
    rcases hg with rfl | rfl <;>
      exact ⟨rfl, rfl, three_long _ _ _, three_long _ _ _, three_long _ _ _, (fun x (h : none = some x) => nomatch h), three_long _ _ _⟩

/-- Witness for C59: both files can be read, in any order. -/
example (dflt : Timestep ℝ) : ∃ l, demoT.session .debug dflt [2, 0, 1] = .ok l ∧ List.Forall₂ demoT.Stored [2, 0, 1] l :=
  C59_stored .debug demoT (by norm_num [demoT]) (by norm_num [demoT]) demoT_complete dflt _ (by intro t ht; simp at ht; change t < 3; omega)

example (dflt : Timestep ℝ) : ∃ l, demoP.session .release dflt [2, 0, 1] = .ok l ∧ List.Forall₂ demoP.Stored [2, 0, 1] l :=
  C59_stored .release demoP (by norm_num [demoP]) (by norm_num [demoP]) demoP_complete dflt _ (by intro t ht; simp at ht; change t < 3; omega)

/-- Witness for the rejection: a file that announces four timesteps and has three. -/
example (dflt : Timestep ℝ) : ∃ e, (⟨.tdata, [twoGroup 0, twoGroup 1, twoGroup 2], [], 4, 2⟩ : H5 ℝ).session .debug dflt [0] = .error e :=
  C59_reject .debug _ rfl (by norm_num [BUFFERSIZE]) dflt [0] 3 (by norm_num) (by intro g h; cases h)

/-! ### C60: reading without the buffer -/

/-- **C60, time-based files.** Reading a timestep past the buffer returns what the buffered read returns. -/
theorem C60_tdata_partial (h : H5 K) (hk : h.kind = .tdata) (hc : h.Complete) (t : ℕ) (ht : t < h.n) :
    ∃ ts, h.unbuffered t = .ok ts ∧ h.Stored t ts ∧
      ∀ [LawfulArith K] (p : Profile) (dflt : Timestep K) (reqs : List ℕ), h.n ≤ 2 ^ 50 → (∀ r ∈ reqs, r < h.n) → t ∈ reqs →
        ∃ l, h.session p dflt reqs = .ok l ∧ ∀ k : ℕ, reqs[k]? = some t → l[k]? = some ts := by
  obtain ⟨kind, tg, pg, n, np⟩ := h
  cases hk
  have hlen : t < tg.length := lt_of_lt_of_le ht hc.1
  obtain ⟨ts, e, hh⟩ := tRead_ok tg t tg[t] (List.getElem?_eq_getElem hlen) (hc.2 _ (by
    rw [List.mem_take_iff_getElem]; exact ⟨t, by simp only; change t < n at ht; omega, rfl⟩))
  refine ⟨ts, e, ⟨_, List.getElem?_eq_getElem hlen, hh⟩, ?_⟩
  intro _ p dflt reqs hn hr htr
  obtain ⟨l, e1, hl⟩ := C59_stored p ⟨.tdata, tg, pg, n, np⟩ (by change 1 ≤ n; change t < n at ht; omega) hn hc dflt reqs hr
  refine ⟨l, e1, fun k hk => ?_⟩
  have hlen' := hl.length_eq
  obtain ⟨hk1, hk2⟩ := List.getElem?_eq_some_iff.1 hk
  have hk3 : k < l.length := by omega
  have := (List.forall₂_iff_get.1 hl).2 k hk1 hk3
  rw [List.get_eq_getElem, List.get_eq_getElem, hk2] at this
  obtain ⟨g, hg, hh'⟩ := this
  change tg[t]? = some g at hg
  rw [List.getElem?_eq_getElem hlen] at hg
  cases hg
  rw [List.getElem?_eq_getElem hk3]
  congr 1
  -- the contents of the group determine the timestep
  generalize l[k] = a at hh'
  obtain ⟨a1, a2, a3, a4, a5, a6, a7, a8, a9⟩ := hh'
  obtain ⟨b1, b2, b3, b4, b5, b6, b7, b8, b9⟩ := hh
  obtain ⟨c1, c2, c3, c4, c5, c6, c7, c8⟩ := a
  obtain ⟨d1, d2, d3, d4, d5, d6, d7, d8⟩ := ts
  dsimp only at *
  rw [a1] at b1; rw [a2] at b2; rw [a3] at b3; rw [a4] at b4; rw [a5] at b5; rw [a6] at b6; rw [a7] at b7
  cases b1; cases b2; cases b3; cases b4; cases b5; cases b6; cases b7
  have : c7 = d7 := by
    cases hd : (tg[t]).density with
    | some d => rw [a8 d hd, b8 d hd]
    | none =>
      obtain ⟨x1, x2⟩ := a9 hd
      obtain ⟨y1, y2⟩ := b9 hd
      rw [List.eq_replicate_of_mem x2, List.eq_replicate_of_mem y2, x1, y1]
  rw [this]

/-- **C60, particle-based files: what the unbuffered read returns.** With one particle whose radius, type and id are stored, it returns row `t` of
that particle with the id stored in the file (the buffered read gives the number of the particle instead); a missing density is
replaced by the radius (the buffered read gives 0). -/
theorem C60_pdata_value (h : H5 K) (hk : h.kind = .pdata) (hnp : h.np = 1) (hc : h.Complete) (g : PGroup K) (hg : h.pgroups[0]? = some g)
    (hr : g.radius.isSome) (hy : g.ptype.isSome) (hi : g.ids.isSome) (hil : LongEnough h.n g.ids) (t : ℕ) (ht : t < h.n) :
    ∃ ts, h.unbuffered t = .ok ts ∧ g.time.bind (·[t]?) = some ts.time ∧
      ts.position.length = 1 ∧ ts.velocity.length = 1 ∧ ts.radius.length = 1 ∧ ts.particleid.length = 1 ∧ ts.density.length = 1 ∧
      ts.ptype.length = 1 ∧ ts.clouds = [1] ∧
      ts.position[0]? = g.position.bind (·[t]?) ∧ ts.velocity[0]? = g.velocity.bind (·[t]?) ∧ ts.radius[0]? = g.radius.bind (·[t]?) ∧
      ts.ptype[0]? = g.ptype.bind (·[t]?) ∧ ts.particleid[0]? = g.ids.bind (·[t]?) ∧
      (∀ d, g.density = some d → ts.density[0]? = d[t]?) ∧ (g.density = none → ts.density = ts.radius) := by
  obtain ⟨kind, tg, pg, n, np⟩ := h
  cases hk; cases hnp
  change t < n at ht
  change pg[0]? = some g at hg
  have hc' : PComplete pg n 1 := hc
  obtain ⟨h1, h2, h3, h4⟩ := hc'
  obtain ⟨i, hi1⟩ := Option.isSome_iff_exists.1 hi
  obtain ⟨r, hr⟩ := Option.isSome_iff_exists.1 hr
  obtain ⟨y, hy⟩ := Option.isSome_iff_exists.1 hy
  obtain ⟨a1, a2⟩ := h3 g hg
  obtain ⟨tm, htm⟩ := Option.isSome_iff_exists.1 a1
  obtain ⟨k1, k2, k3, k4, k5, k6, k7⟩ := h4 g (by
    rw [List.mem_take_iff_getElem]
    obtain ⟨hlt, e⟩ := List.getElem?_eq_some_iff.1 hg
    exact ⟨0, by omega, e⟩)
  obtain ⟨pl, hp⟩ := Option.isSome_iff_exists.1 k1
  obtain ⟨vl, hv⟩ := Option.isSome_iff_exists.1 k2
  have lr := lt_of_lt_of_le ht (k5 r hr)
  have ly := lt_of_lt_of_le ht (k7 y hy)
  have lp := lt_of_lt_of_le ht (k3 pl hp)
  have lv := lt_of_lt_of_le ht (k4 vl hv)
  have lt' := lt_of_lt_of_le ht (a2 tm htm)
  have li : t < i.length := lt_of_lt_of_le ht (hil i hi1)
  have cell : ∃ d, pCell pg 1 t 0 = .ok ⟨tm[t], pl[t], vl[t], r[t], y[t], d, i[t]⟩ ∧
      (∀ l, g.density = some l → some d = l[t]?) ∧ (g.density = none → d = r[t]) := by
    cases hd : g.density with
    | none =>
      refine ⟨r[t], ?_, by simp, by simp⟩
      unfold pCell
      rw [hg]
      simp only [need, run_bind_ok, hp, hv, hr, hd, hy, hi1, htm, at_some lp, at_some lv, at_some lr, at_some ly, at_some li, at_some lt']
      rfl
    | some l =>
      have ld := lt_of_lt_of_le ht (k6 l hd)
      refine ⟨l[t], ?_, by intro l' e; cases e; simp [ld], by simp⟩
      unfold pCell
      rw [hg]
      simp only [need, run_bind_ok, hp, hv, hr, hd, hy, hi1, htm, at_some lp, at_some lv, at_some lr, at_some ld, at_some ly, at_some li, at_some lt']
      rfl
  obtain ⟨d, cell, hd1, hd2⟩ := cell
  refine ⟨⟨tm[t], [pl[t]], [vl[t]], [r[t]], [i[t]], [1], [d], [y[t]]⟩, ?_, ?_⟩
  · change pReadSingle pg 1 t = _
    unfold pReadSingle
    simp only [List.range_one, List.foldlM_cons, List.foldlM_nil, cell, run_bind_ok, run_pure]
    change (at' [(⟨tm[t], pl[t], vl[t], r[t], y[t], d, i[t]⟩ : PCell K)] 0 >>= fun c0 => _) = _
    rw [at_some (by simp), run_bind_ok]
    rfl
  · simp [htm, hp, hv, hr, hy, hi1, lp, lv, lr, ly, li, lt']
    exact ⟨fun l hl => hd1 l hl, hd2⟩

/-- **C60, particle-based files.** With one particle whose datasets are all there and whose stored ids are 0, reading past the buffer returns what
is stored. The full statement (any complete file) is refuted by `C60_false`. -/
theorem C60_pdata_partial (h : H5 K) (hk : h.kind = .pdata) (hnp : h.np = 1) (hc : h.Complete) (g : PGroup K) (hg : h.pgroups[0]? = some g)
    (hr : g.radius.isSome) (hd : g.density.isSome) (hy : g.ptype.isSome)
    (hi : ∃ l, g.ids = some l ∧ h.n ≤ l.length ∧ ∀ x ∈ l, x = F.ofNat 0) (t : ℕ) (ht : t < h.n) :
    ∃ ts, h.unbuffered t = .ok ts ∧ h.Stored t ts := by
  obtain ⟨l, hl1, hl2, hl3⟩ := hi
  obtain ⟨ts, e, e1, e2, e3, e4, e5, e6, e7, e8, e9, e10, e11, e12, e13, e14, _⟩ := C60_pdata_value h hk hnp hc g hg hr hy (by rw [hl1]; rfl)
    (by intro x hx; rw [hl1] at hx; cases hx; exact hl2) t ht
  refine ⟨ts, e, ?_⟩
  obtain ⟨r, hr⟩ := Option.isSome_iff_exists.1 hr
  obtain ⟨d, hd⟩ := Option.isSome_iff_exists.1 hd
  obtain ⟨y, hy⟩ := Option.isSome_iff_exists.1 hy
  unfold H5.Stored
  rw [hk]
  refine ⟨fun g' hg' => ?_, by omega, by omega, by omega, by omega, by simp [e8, hnp], by omega, by omega, fun i hi g' hg' => ?_⟩
  · rw [hg] at hg'; cases hg'; exact e1
  · obtain rfl : i = 0 := by omega
    rw [hg] at hg'; cases hg'
    rw [hr] at e11; rw [hy] at e12; rw [hl1] at e13
    have hlt : t < l.length := by omega
    refine ⟨e9, e10, by rw [hr]; exact e11, by rw [hd]; exact e14 d hd, by rw [hy]; exact e12, ?_, by rw [e8]; rfl⟩
    rw [e13]
    change l[t]? = _
    rw [List.getElem?_eq_getElem hlt, hl3 _ (List.getElem_mem hlt)]

/-- **C60 fails for every particle-based file with two or more particles:** the read past the buffer panics, the row of three coordinates cannot be
reshaped to one row per particle, while the buffered reads of the same file all succeed. -/
theorem C60_pdata_panics [LawfulArith K] (p : Profile) (h : H5 K) (hk : h.kind = .pdata) (hnp : 2 ≤ h.np) (hn : h.n ≤ 2 ^ 50) (hc : h.Complete)
    (dflt : Timestep K) (t : ℕ) (ht : t < h.n) :
    h.unbuffered t = .error .explicit ∧ ∃ ts, h.session p dflt [t] = .ok [ts] ∧ h.Stored t ts := by
  constructor
  · obtain ⟨kind, tg, pg, n, np⟩ := h
    cases hk
    change t < n at ht
    change 2 ≤ np at hnp
    have hc' : PComplete pg n np := hc
    obtain ⟨h1, h2, h3, h4⟩ := hc'
    have hg0 : pg[0]? = some pg[0] := List.getElem?_eq_getElem (by omega)
    obtain ⟨k1, k2, k3, k4, k5, k6, k7⟩ := h4 pg[0] (by
      rw [List.mem_take_iff_getElem]; exact ⟨0, by omega, rfl⟩)
    obtain ⟨pl, hp⟩ := Option.isSome_iff_exists.1 k1
    have lp := lt_of_lt_of_le ht (k3 pl hp)
    have cell : pCell pg np t 0 = .error .explicit := by
      unfold pCell
      rw [hg0]
      simp only [need, run_bind_ok, hp, at_some lp]
      rw [if_pos (by omega)]
    change pReadSingle pg np t = _
    unfold pReadSingle
    obtain ⟨m, rfl⟩ : ∃ m, np = m + 1 := ⟨np - 1, by omega⟩
    rw [List.range_succ_eq_map, List.foldlM_cons, cell]
    rfl
  · obtain ⟨l, e, hl⟩ := C59_stored p h (by omega) hn hc dflt [t] (by simpa using ht)
    cases hl with
    | cons a b => cases b; exact ⟨_, e, a⟩

/-- **C60 is false for particle-based files:** with two particles the read past the buffer panics (the row of three coordinates cannot be reshaped
to two rows), while the buffered read returns the timestep. -/
theorem C60_false : ∃ (h : H5 ℝ), h.Complete ∧ (∀ dflt, ∃ l, h.session .debug dflt [1] = .ok l ∧ List.Forall₂ h.Stored [1] l) ∧
    h.unbuffered 1 = .error .explicit := by
  refine ⟨demoP, demoP_complete, fun dflt => ?_, rfl⟩
  exact C59_stored .debug demoP (by norm_num [demoP]) (by norm_num [demoP]) demoP_complete dflt _ (by intro t ht; simp at ht; change t < 3; omega)

/-- Witness for the refutation for every file of two or more particles. -/
example : demoP.unbuffered 1 = .error .explicit :=
  (C60_pdata_panics (K := ℝ) .debug demoP rfl (by norm_num [demoP]) (by norm_num [demoP]) demoP_complete
    ⟨0, [], [], [], [], [], [], []⟩ 1 (by norm_num [demoP])).1

/-- Witness for the partial statements. -/
example : ∃ ts, demoT.unbuffered 1 = .ok ts ∧ demoT.Stored 1 ts := by
  obtain ⟨ts, h1, h2, _⟩ := C60_tdata_partial demoT rfl demoT_complete 1 (by norm_num [demoT])
  exact ⟨ts, h1, h2⟩

end Up4
