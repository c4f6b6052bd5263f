import Verif.Props.LastStep
import Verif.Props.Msd
import Verif.Props.Dispersion
import Verif.Props.Vtk
import Verif.Props.Dispatch

/-!
C126: "particles are followed by their id". `dispersion` and `msd_field` pair the particles of two timesteps by their place in
the file. Where every timestep lists the same ids in the same order (as the VTK converter writes them if no particle enters or
leaves) this follows the particles; otherwise the ids do not matter at all, and a particle that leaves can make both raise.
-/

set_option linter.unusedSectionVars false

namespace Up4

open F
open Selector (at')

variable {K : Type} [Field K] [LinearOrder K] [IsStrictOrderedRing K] [FloorRing K] [Arith K]

/-! ### Specification -/

/-- The particles move on these paths: whoever has the id `k` in timestep `t` is at `path k t`. -/
def Along (d : Dm (Timestep K)) (path : F K → ℕ → Fin 3 → K) : Prop :=
  ∀ t, t < d.n → ∀ i, i < (d.file t).position.length → ∀ a, (d.file t).pos i a = fin (path ((d.file t).pid i) t a)

/-- Every timestep lists the same ids in the same order. -/
def SameIds (d : Dm (Timestep K)) (ids : List (F K)) : Prop := ∀ t, t < d.n → (d.file t).particleid = ids

/-- The same recordings but for the ids of the particles. -/
def ButIds (d d' : Dm (Timestep K)) : Prop :=
  d.n = d'.n ∧ ∀ t, t < d.n → (d'.file t).time = (d.file t).time ∧ (d'.file t).position = (d.file t).position ∧
    (d'.file t).velocity = (d.file t).velocity

/-- The selection takes the same particles of both. -/
def SamePicks (sel : Selector K) (d d' : Dm (Timestep K)) : Prop :=
  ∀ t, t < d.n → ∀ i, (d'.file t).chosen sel i = (d.file t).chosen sel i

/-! ### Where the ids are the same in every timestep -/

theorem sameIds_length {d : Dm (Timestep K)} {ids : List (F K)} (h : SameIds d ids) (hw : ∀ t, t < d.n → (d.file t).Wf) (t : ℕ) (ht : t < d.n) :
    (d.file t).position.length = ids.length := by
  rw [← (hw t ht).2.2.1, h t ht]

theorem sameIds_end [LawfulArith K] (p : Profile) (sel : Selector K) (st : Stats K) {d : Dm (Timestep K)} (hd : d.Inv) {τ : ℕ → K}
    (hc : Clocked st d.file d.n τ) {ids : List (F K)} (h : SameIds d ids) (hw : ∀ t, t < d.n → (d.file t).Wf)
    {path : F K → ℕ → Fin 3 → K} (hp : Along d path) (δ : K) (l : List ℕ) (hl : ∀ t ∈ l, t < d.n) (x : ℕ × ℕ × ℕ)
    (hx : x ∈ d.leads p sel st (fin δ) l) (a : Fin 3) :
    startOf d.file x a = fin (path ((d.file x.1).pid x.2.1) x.1 a) ∧
      endOf d.file x a = fin (path ((d.file x.1).pid x.2.1) x.2.2 a) := by
  obtain ⟨t, i, t'⟩ := x
  obtain ⟨ht, ht', hi⟩ := lead_in_range p sel st d hd τ hc δ l hl hx
  have hi' : i < (d.file t').position.length := by rw [sameIds_length h hw t' ht', ← sameIds_length h hw t ht]; exact hi
  have e : (d.file t').pid i = (d.file t).pid i := by unfold Timestep.pid; rw [h t ht, h t' ht']
  refine ⟨hp t ht i hi a, ?_⟩
  change (d.file t').pos i a = _
  rw [hp t' ht' i hi' a, e]

/-- **C126 (partial), `dispersion`.** If every timestep lists the same ids in the same order, the dispersion of a cell is the sample
variance of the later positions of the very particles that start in it, as their ids tell. -/
theorem C126_dispersion_partial [LawfulArith K] [ExactArith K] (p : Profile) (d : Dm (Timestep K)) (hd : d.CanLook) (st : Stats K) (τ : ℕ → K)
    (hc : Clocked st d.file d.n τ) (grid : Grid K) (hg : grid.Fillable p) (hfresh : ∀ c, grid.st.data.get c = 0)
    (hfreshw : ∀ c, grid.st.weight.get c = 0) (sel : Selector K) (hs : sel.Usable) (hw : ∀ t, t < d.n → (d.file t).Wf)
    (ids : List (F K)) (hids : SameIds d ids) (path : F K → ℕ → Fin 3 → K) (hp : Along d path) (δ : K) :
    ∃ d' g' m, dispersion p d st grid sel (fin δ) = .ok (d', g', m) ∧
      ∀ c, InB grid.geom.cells c →
        let S := (d.leads p sel st (fin δ) (List.range d.n)).filter fun x =>
          inCell p grid.geom (fun a => fin (path ((d.file x.1).pid x.2.1) x.1 a)) c
        let later := fun (a : Fin 3) => S.map fun x => path ((d.file x.1).pid x.2.1) x.2.2 a
        (1 < S.length → g'.st.data.get c = fin (sampleVar (later 0) + sampleVar (later 1) + sampleVar (later 2))) ∧
        (S.length ≤ 1 → g'.st.data.get c = 0) := by
  have key := fun x hx a => sameIds_end p sel st hd.1 hc hids hw hp δ (List.range d.n) (fun t ht => List.mem_range.1 ht) x hx a
  obtain ⟨d', g', m, h1, _, _, _, _, h2, h3, _⟩ := C38_dispersion p d hd st τ hc grid hg hfresh hfreshw sel hs hw ids.length
    (fun t ht => sameIds_length hids hw t ht) δ (fun x a => path ((d.file x.1).pid x.2.1) x.2.2 a) (fun x hx _ a => (key x hx a).2)
  refine ⟨d', g', m, h1, fun c hcb => ?_⟩
  have e : ((d.leads p sel st (fin δ) (List.range d.n)).filter fun x => inCell p grid.geom (startOf d.file x) c) =
      (d.leads p sel st (fin δ) (List.range d.n)).filter fun x =>
        inCell p grid.geom (fun a => fin (path ((d.file x.1).pid x.2.1) x.1 a)) c := by
    apply List.filter_congr
    intro x hx
    rw [show startOf d.file x = fun a => fin (path ((d.file x.1).pid x.2.1) x.1 a) from funext fun a => (key x hx a).1]
  intro S later
  have k2 := h2 c hcb
  have k3 := h3 c hcb
  dsimp only at k2 k3
  rw [e] at k2 k3
  exact ⟨fun h => (k2 h).1, fun h => (k3 h).1⟩

/-- **C126 (partial), `msd_field`.** If every timestep lists the same ids in the same order, a cell in which one sample starts holds the
squared displacement of the particle with that id; in particular, if no particle moves every cell holds zero. -/
theorem C126_msd_partial [LawfulArith K] [ExactArith K] (p : Profile) (d : Dm (Timestep K)) (hd : d.CanLook) (st : Stats K) (τ : ℕ → K)
    (hc : Clocked st d.file d.n τ) (grid : Grid K) (hg : grid.Fillable p) (hfreshw : ∀ c, grid.st.weight.get c = 0)
    (sel : Selector K) (hs : sel.Usable) (hw : ∀ t, t < d.n → (d.file t).Wf)
    (ids : List (F K)) (hids : SameIds d ids) (path : F K → ℕ → Fin 3 → K) (hp : Along d path) (δ : K) :
    ∃ d' g', msdField p d st grid sel (fin δ) = .ok (d', g') ∧
      (∀ c, InB grid.geom.cells c →
        ∀ x, ((d.leads p sel st (fin δ) (List.range (d.n - 1))).filter fun x =>
          inCell p grid.geom (fun a => fin (path ((d.file x.1).pid x.2.1) x.1 a)) c) = [x] →
        g'.st.data.get c = fin (∑ a, (path ((d.file x.1).pid x.2.1) x.1 a - path ((d.file x.1).pid x.2.1) x.2.2 a) ^ 2)) ∧
      ((∀ k t t' a, path k t a = path k t' a) → ∀ c, InB grid.geom.cells c → g'.st.data.get c = 0) := by
  have hl : ∀ t ∈ List.range (d.n - 1), t < d.n := fun t ht => by have := List.mem_range.1 ht; omega
  have key := fun x hx a => sameIds_end p sel st hd.1 hc hids hw hp δ (List.range (d.n - 1)) hl x hx a
  obtain ⟨d', g', D, h1, _, _, _, _, hD, h2⟩ := C44_msd_partial p d hd st τ hc grid hg hfreshw sel hs hw ids.length
    (fun t ht => sameIds_length hids hw t ht) δ (fun x a => path ((d.file x.1).pid x.2.1) x.1 a)
    (fun x a => path ((d.file x.1).pid x.2.1) x.2.2 a) (fun x hx _ a => key x hx a)
  have e : ∀ c, ((d.leads p sel st (fin δ) (List.range (d.n - 1))).filter fun x => inCell p grid.geom (startOf d.file x) c) =
      (d.leads p sel st (fin δ) (List.range (d.n - 1))).filter fun x =>
        inCell p grid.geom (fun a => fin (path ((d.file x.1).pid x.2.1) x.1 a)) c := by
    intro c
    apply List.filter_congr
    intro x hx
    rw [show startOf d.file x = fun a => fin (path ((d.file x.1).pid x.2.1) x.1 a) from funext fun a => (key x hx a).1]
  refine ⟨d', g', h1, fun c hcb x hx => ?_, fun hrest c hcb => ?_⟩
  · have k := h2 c hcb
    dsimp only at k
    rw [e] at k
    rw [k.2.2.2.1 x hx, Fin.sum_univ_three]
  · have k := h2 c hcb
    dsimp only at k
    by_cases hS : ((d.leads p sel st (fin δ) (List.range (d.n - 1))).filter fun x => inCell p grid.geom (startOf d.file x) c) = []
    · exact k.2.1 hS
    · have hD0 : ∀ x, D x = 0 := by
        intro x
        have h := (hD x).2
        rw [hrest _ x.1 x.2.2, hrest _ x.1 x.2.2, hrest _ x.1 x.2.2] at h
        simpa using h
      have hs0 : ∀ l : List (ℕ × ℕ × ℕ), (l.map D).sum = 0 := by
        intro l
        induction l with
        | nil => rfl
        | cons y l ih => rw [List.map_cons, List.sum_cons, ih, hD0, add_zero]
      rw [k.2.2.1 hS, hs0]
      simp [F.zero_def]

/-- **C126, files from the VTK converter.** If the VTK files list the same particles, in whatever order, all timesteps list their ids in the
same order. -/
theorem C126_vtk (o : VtkOpts) (dt : F K) (f f' : ℤ × List (Rec K)) (h : (f.2.map Rec.num).Perm (f'.2.map Rec.num))
    (ts ts' : Timestep K) (hf : IsFile o dt f ts) (hf' : IsFile o dt f' ts') : ts'.particleid = ts.particleid := by
  obtain ⟨_, r, hr, hs, hd, _⟩ := hf
  obtain ⟨_, r', hr', hs', hd', _⟩ := hf'
  have hp : (r'.map Rec.num).Perm (r.map Rec.num) := ((hr'.map _).trans h.symm).trans (hr.map _).symm
  have e : r'.map Rec.num = r.map Rec.num :=
    hp.eq_of_pairwise' (List.pairwise_map.2 hs') (List.pairwise_map.2 hs)
  have k : ∀ l : List (Rec K), l.map (fun r => (F.ofNat r.num : F K)) = (l.map Rec.num).map F.ofNat := fun l => by rw [List.map_map]; rfl
  rw [hd, hd', k, k, e]

/-! ### In general the ids do not matter -/

theorem picks_alike {sel : Selector K} {d d' : Dm (Timestep K)} (h : ButIds d d') (hp : SamePicks sel d d') (t : ℕ) (ht : t < d.n) :
    (d'.file t).picks sel = (d.file t).picks sel := by
  obtain ⟨h1, h2, _⟩ := h.2 t ht
  unfold Timestep.picks
  rw [h1, h2]
  congr 1
  apply List.filter_congr
  intro i _
  exact hp t ht i

theorem clocked_alike {st : Stats K} {d d' : Dm (Timestep K)} (h : ButIds d d') {τ : ℕ → K} (hc : Clocked st d.file d.n τ) :
    Clocked st d'.file d'.n τ := by
  rw [← h.1]
  exact ⟨hc.times, fun t ht => by rw [(h.2 t ht).1, hc.time t ht], hc.mono⟩

theorem leads_alike {sel : Selector K} {d d' : Dm (Timestep K)} (h : ButIds d d') (hp : SamePicks sel d d') (p : Profile) (st : Stats K) (δ : F K) (l : List ℕ)
    (hl : ∀ t ∈ l, t < d.n) :
    leads sel d'.file (partner p st.times d'.file δ) l = leads sel d.file (partner p st.times d.file δ) l := by
  unfold leads
  rw [List.flatMap_def, List.flatMap_def]
  congr 1
  apply List.map_congr_left
  intro t ht
  have hpt : partner p st.times d'.file δ t = partner p st.times d.file δ t := by
    unfold partner; rw [(h.2 t (hl t ht)).1]
  rw [hpt, picks_alike h hp t (hl t ht)]

/-- What a loop with look-ahead answers. -/
theorem future_answer [LawfulArith K] {σ ρ : Type} (p : Profile) (st : Stats K) (sel : Selector K) (hs : sel.Usable) (δ : K)
    (body : Timestep K → σ → Timestep K → ℕ → Run σ) (d : Dm (Timestep K)) (hd : d.CanLook) (τ : ℕ → K) (hc : Clocked st d.file d.n τ)
    (hw : ∀ t, t < d.n → (d.file t).Wf) (m : ℕ) (hm : m ≤ d.n) (s : σ) (out : σ → Run ρ) :
    answerOf (do
      let d ← d.setup p Timestep.default 0
      let r ← futureLoop p st sel (fin δ) body (List.range m) d s
      let q ← out r.2
      pure (r.1, q)) =
    ((leads sel d.file (partner p st.times d.file (fin δ)) (List.range m)).foldlM (fun s x => body (d.file x.2.2) s (d.file x.1) x.2.1) s >>= out) := by
  obtain ⟨d1, e1, hd1, hf1, hn1⟩ := Dm.setup_looking p Timestep.default d hd
  obtain ⟨d2, l2, hd2, hf2, hn2, e2⟩ := futureLoop_eq p st sel hs δ body (List.range m) d1 τ
    (by rw [hf1, hn1]; exact hc) (by rw [hf1, hn1]; exact hw) 0 hd1 (fun t ht => by have := List.mem_range.1 ht; omega)
    (List.pairwise_le_range) (fun _ _ _ _ => Nat.zero_le _) s
  unfold answerOf
  rw [e1, run_bind_ok, e2, hf1]
  cases (leads sel d.file (partner p st.times d.file (fin δ)) (List.range m)).foldlM (fun s x => body (d.file x.2.2) s (d.file x.1) x.2.1) s with
  | error e => rfl
  | ok s =>
    simp only [run_bind_ok]
    cases out s <;> rfl

theorem dispersion_answer [LawfulArith K] (p : Profile) (st : Stats K) (sel : Selector K) (hs : sel.Usable) (δ : K) (grid : Grid K)
    (d : Dm (Timestep K)) (hd : d.CanLook) (τ : ℕ → K) (hc : Clocked st d.file d.n τ) (hw : ∀ t, t < d.n → (d.file t).Wf) :
    answerOf (dispersion p d st grid sel (fin δ)) =
      ((leads sel d.file (partner p st.times d.file (fin δ)) (List.range d.n)).foldlM
        (fun s x => dispersionBody p grid (d.file x.2.2) s (d.file x.1) x.2.1) (Sums.init grid) >>= fun s => do
          let g ← dispersionCells s grid.newZeros
          let wd ← Arr.zipWith (· * ·) g.st.weight g.st.data
          pure (g, F.sum wd.toList / F.sum g.st.weight.toList)) := by
  rw [← future_answer p st sel hs δ (dispersionBody p grid) d hd τ hc hw d.n le_rfl]
  unfold dispersion
  obtain ⟨d1, e1, hd1, hf1, hn1⟩ := Dm.setup_looking p Timestep.default d hd
  rw [e1, run_bind_ok, run_bind_ok, allSteps_eq p d1 hd1.1, run_bind_ok, hn1]
  simp only [bind_assoc]
  rfl

theorem msd_answer [LawfulArith K] (p : Profile) (st : Stats K) (sel : Selector K) (hs : sel.Usable) (δ : K) (grid : Grid K)
    (d : Dm (Timestep K)) (hd : d.CanLook) (τ : ℕ → K) (hc : Clocked st d.file d.n τ) (hw : ∀ t, t < d.n → (d.file t).Wf) :
    answerOf (msdField p d st grid sel (fin δ)) =
      ((leads sel d.file (partner p st.times d.file (fin δ)) (List.range (d.n - 1))).foldlM
        (fun s x => msdBody p grid (d.file x.2.2) s (d.file x.1) x.2.1) grid.newZeros >>= fun s => do
          let data ← Arr.zipWith (fun x y => if y > 0 then (x * x) / y else 0) s.st.data s.st.weight
          let g ← grid.setData data
          g.setWeights s.st.weight) := by
  rw [← future_answer p st sel hs δ (msdBody p grid) d hd τ hc hw (d.n - 1) (by omega)]
  unfold msdField
  obtain ⟨d1, e1, hd1, hf1, hn1⟩ := Dm.setup_looking p Timestep.default d hd
  rw [e1, run_bind_ok, run_bind_ok, stepsBut_eq p d1 hd1.1 (inv_pos hd1.1), run_bind_ok, hn1]
  simp only [bind_assoc]

/-- **C126, refuted for `dispersion`.** The ids do not matter: two recordings which differ in the ids only get one answer. -/
theorem C126_dispersion_false [LawfulArith K] (p : Profile) (st : Stats K) (sel : Selector K) (hs : sel.Usable) (δ : K) (grid : Grid K)
    (d d' : Dm (Timestep K)) (hd : d.CanLook) (hd' : d'.CanLook) (τ : ℕ → K) (hc : Clocked st d.file d.n τ)
    (hw : ∀ t, t < d.n → (d.file t).Wf) (hw' : ∀ t, t < d'.n → (d'.file t).Wf) (h : ButIds d d') (hp : SamePicks sel d d') :
    answerOf (dispersion p d' st grid sel (fin δ)) = answerOf (dispersion p d st grid sel (fin δ)) := by
  rw [dispersion_answer p st sel hs δ grid d hd τ hc hw, dispersion_answer p st sel hs δ grid d' hd' τ (clocked_alike h hc) hw',
    ← h.1, leads_alike h hp p st (fin δ) _ (fun t ht => List.mem_range.1 ht)]
  congr 1
  apply foldlM_congr
  rintro s ⟨t, i, t'⟩ hx
  obtain ⟨ht, ht', _⟩ := lead_in_range p sel st d hd.1 τ hc δ (List.range d.n) (fun t ht => List.mem_range.1 ht) hx
  unfold dispersionBody
  dsimp only
  rw [(h.2 t ht).2.1, (h.2 t' ht').2.1]

/-- **C126, refuted for `msd_field`.** -/
theorem C126_msd_false [LawfulArith K] (p : Profile) (st : Stats K) (sel : Selector K) (hs : sel.Usable) (δ : K) (grid : Grid K)
    (d d' : Dm (Timestep K)) (hd : d.CanLook) (hd' : d'.CanLook) (τ : ℕ → K) (hc : Clocked st d.file d.n τ)
    (hw : ∀ t, t < d.n → (d.file t).Wf) (hw' : ∀ t, t < d'.n → (d'.file t).Wf) (h : ButIds d d') (hp : SamePicks sel d d') :
    answerOf (msdField p d' st grid sel (fin δ)) = answerOf (msdField p d st grid sel (fin δ)) := by
  have hl : ∀ t ∈ List.range (d.n - 1), t < d.n := fun t ht => by have := List.mem_range.1 ht; omega
  rw [msd_answer p st sel hs δ grid d hd τ hc hw, msd_answer p st sel hs δ grid d' hd' τ (clocked_alike h hc) hw',
    ← h.1, leads_alike h hp p st (fin δ) _ hl]
  congr 1
  apply foldlM_congr
  rintro s ⟨t, i, t'⟩ hx
  obtain ⟨ht, ht', _⟩ := lead_in_range p sel st d hd.1 τ hc δ (List.range (d.n - 1)) hl hx
  unfold msdBody
  dsimp only
  rw [(h.2 t ht).2.1, (h.2 t' ht').2.1]

/-- **C126, refuted for `occupancyfield`**, which pairs each timestep with the next by place as well. -/
theorem C126_occupancy_false [LawfulArith K] (p : Profile) (sel : Selector K) (hs : sel.Usable) (grid : Grid K) (minV : F K)
    (d d' : Dm (Timestep K)) (hd : d.CanLook) (hd' : d'.CanLook) (hn : 3 ≤ d.n)
    (hw : ∀ t, t < d.n → (d.file t).Wf) (hw' : ∀ t, t < d'.n → (d'.file t).Wf) (h : ButIds d d') (hp : SamePicks sel d d') :
    answerOf (occupancyfield p d' grid sel minV) = answerOf (occupancyfield p d grid sel minV) := by
  rw [occupancy_answer p d hd hn hw grid sel hs minV, occupancy_answer p d' hd' (h.1 ▸ hn) hw' grid sel hs minV, ← h.1]
  have hl : ∀ t ∈ List.range' 0 (d.n - 3), t < d.n - 3 := fun t ht => by
    have := (List.mem_range'_1.1 ht).2; omega
  have es : samples sel d'.file (List.range' 0 (d.n - 3)) = samples sel d.file (List.range' 0 (d.n - 3)) := by
    unfold samples
    rw [List.flatMap_def, List.flatMap_def]
    congr 1
    apply List.map_congr_left
    intro t ht
    rw [picks_alike h hp t (by have := hl t ht; omega)]
  rw [es]
  congr 1
  apply foldlM_congr
  rintro s ⟨t, i⟩ hx
  obtain ⟨ht, _⟩ := (mem_samples _ _ _ _ _).1 hx
  have := hl t ht
  obtain ⟨k1, k2, k3⟩ := h.2 t (by omega)
  obtain ⟨k1', k2', k3'⟩ := h.2 (t + 1) (by omega)
  unfold occupancyBody
  dsimp only
  rw [k1, k2, k3, k1', k2']

/-- **C126, a particle leaves.** If a sample starts in the grid and its place is not there in the timestep one delay later, `msd_field`
and `dispersion` raise. -/
theorem C126_leaving_panics [LawfulArith K] (p : Profile) (st : Stats K) (sel : Selector K) (hs : sel.Usable) (δ : K) (grid : Grid K)
    (hg : grid.Fillable p) (d : Dm (Timestep K)) (hd : d.CanLook) (τ : ℕ → K) (hc : Clocked st d.file d.n τ)
    (hw : ∀ t, t < d.n → (d.file t).Wf) (t i t' : ℕ) (ht : t + 1 < d.n) (hi : (t, i) ∈ d.samples sel)
    (ht' : partner p st.times d.file (fin δ) t = some t') (hin : grid.isInside ((d.file t).pos i) = true)
    (hgone : (d.file t').position.length ≤ i) :
    (∃ e, msdField p d st grid sel (fin δ) = .error e) ∧ ∃ e, dispersion p d st grid sel (fin δ) = .error e := by
  have herr : ∀ {α β : Type} (r : Run (α × β)), (∃ e, answerOf r = .error e) → ∃ e, r = .error e := by
    intro α β r ⟨e, h⟩
    cases r with
    | error e => exact ⟨e, rfl⟩
    | ok x => cases h
  have hmem := hi
  unfold Dm.samples at hmem
  obtain ⟨_, _, hilt⟩ := (mem_samples _ _ _ _ _).1 hmem
  have hgone' : at' (d.file t').position i = .error .index := by
    unfold at'; rw [List.getElem?_eq_none hgone]
  have hlen : i < (d.file t).position.length := hilt.1
  have hpos : at' (d.file t).position i = .ok ((d.file t).pos i) := at_ok hlen _
  constructor
  · apply herr
    rw [msd_answer p st sel hs δ grid d hd τ hc hw]
    obtain ⟨e, h⟩ := foldlM_bad (f := fun s x => msdBody p grid (d.file x.2.2) s (d.file x.1) x.2.1)
      (l := leads sel d.file (partner p st.times d.file (fin δ)) (List.range (d.n - 1)))
      ⟨(t, i, t'), (mem_leads _ _ _ _ _ _ _).2 ⟨by
        rw [mem_samples] at hmem ⊢
        exact ⟨List.mem_range.2 (by omega), hmem.2⟩, ht'⟩, fun s => ⟨.index, by
        unfold msdBody
        dsimp only
        rw [hpos, run_bind_ok, if_pos hin, hgone']
        rfl⟩⟩ grid.newZeros
    rw [h]
    exact ⟨e, rfl⟩
  · apply herr
    rw [dispersion_answer p st sel hs δ grid d hd τ hc hw]
    obtain ⟨c, hcell, _⟩ := hg.2 _ hin
    obtain ⟨e, h⟩ := foldlM_bad (f := fun s x => dispersionBody p grid (d.file x.2.2) s (d.file x.1) x.2.1)
      (l := leads sel d.file (partner p st.times d.file (fin δ)) (List.range d.n))
      ⟨(t, i, t'), (mem_leads _ _ _ _ _ _ _).2 ⟨hmem, ht'⟩, fun s => ⟨.index, by
        unfold dispersionBody
        dsimp only
        rw [hpos, run_bind_ok, if_pos hin]
        change (grid.geom.cellId p ((d.file t).pos i) >>= _) = _
        rw [hcell, run_bind_ok]
        dsimp only
        rw [hgone']
        rfl⟩⟩ (Sums.init grid)
    rw [h]
    exact ⟨e, rfl⟩

/-- Two particles at rest, at the origin and at `(1/2, 1/2, 1/2)`, listed the other way round in every second timestep. -/
noncomputable def swapped (t : ℕ) : Timestep ℝ :=
  ⟨fin t, if t % 2 = 0 then [fun _ => fin 0, fun _ => fin (1 / 2)] else [fun _ => fin (1 / 2), fun _ => fin 0],
    [fun _ => fin 0, fun _ => fin 0], [fin 1, fin 1], if t % 2 = 0 then [fin 1, fin 2] else [fin 2, fin 1],
    [fin 0, fin 0], [fin 0, fin 0], [fin 0, fin 0]⟩

open Classical in
/-- The paths of the two particles: both rest. -/
noncomputable def restPath (k : F ℝ) (_ : ℕ) (_ : Fin 3) : ℝ := if k = fin 1 then 0 else 1 / 2

theorem swapped_wf (t : ℕ) : (swapped t).Wf := by
  unfold swapped Timestep.Wf
  split_ifs <;> exact ⟨rfl, rfl, rfl, rfl, rfl, rfl⟩

theorem swapped_clocked (st : Stats ℝ) (n : ℕ) (hst : st.times = timesOf (fun i => 0 + (i : ℝ) * 1) n) :
    Clocked st swapped n (fun i => 0 + (i : ℝ) * 1) :=
  ⟨hst, fun t _ => by simp [swapped], fun i j h _ => by simpa using h⟩

theorem swapped_pos (t i : ℕ) (hi : i < 2) : (swapped t).pos i = fun _ => fin (if (t + i) % 2 = 0 then 0 else 1 / 2) := by
  unfold Timestep.pos swapped
  dsimp only
  rcases Nat.mod_two_eq_zero_or_one t with h | h <;> interval_cases i
  · rw [if_pos h, if_pos (by omega)]; rfl
  · rw [if_pos h, if_neg (by omega)]; rfl
  · rw [if_neg (by omega), if_neg (by omega)]; rfl
  · rw [if_neg (by omega), if_pos (by omega)]; rfl

theorem swapped_pid (t i : ℕ) (hi : i < 2) : (swapped t).pid i = if (t + i) % 2 = 0 then fin 1 else fin 2 := by
  unfold Timestep.pid swapped
  dsimp only
  rcases Nat.mod_two_eq_zero_or_one t with h | h <;> interval_cases i
  · rw [if_pos h, if_pos (by omega)]; rfl
  · rw [if_pos h, if_neg (by omega)]; rfl
  · rw [if_neg (by omega), if_neg (by omega)]; rfl
  · rw [if_neg (by omega), if_pos (by omega)]; rfl

theorem swapped_rests (d : Dm (Timestep ℝ)) (hf : d.file = swapped) : Along d restPath := by
  intro t _ i hi a
  rw [hf] at hi ⊢
  have hi2 : i < 2 := by
    unfold swapped at hi
    dsimp only at hi
    split_ifs at hi <;> exact hi
  have h21 : (fin 2 : F ℝ) ≠ fin 1 := by intro h; injection h with h; norm_num at h
  rw [swapped_pos t i hi2, swapped_pid t i hi2]
  unfold restPath
  by_cases h : (t + i) % 2 = 0
  · rw [if_pos h, if_pos h, if_pos rfl]
  · rw [if_neg h, if_neg h, if_neg h21]

theorem swapped_leads (p : Profile) (st : Stats ℝ) (hst : st.times = timesOf (fun i => 0 + (i : ℝ) * 1) 2) :
    leads Selector.default swapped (partner p st.times swapped (fin 1)) (List.range 1) = [(0, 0, 1), (0, 1, 1)] := by
  have hp : partner p st.times swapped (fin 1) 0 = some 1 := by
    have := partner_uniform p st swapped 2 1 0 (by norm_num) (swapped_clocked st 2 hst) (by norm_num) 1 0 (by norm_num)
    simpa using this
  have hk : (swapped 0).picks Selector.default = [0, 1] := by
    have h : (Selector.default : Selector ℝ).timestepValid (swapped 0).time = true := demo_time 0 (by norm_num)
    unfold Timestep.picks
    rw [if_pos h]
    simp [swapped, chosen_default, List.range_succ]
  rw [show List.range 1 = [0] from rfl]
  simp only [leads_cons, leads_nil, hp, hk]
  simp

/-- **C126, a concrete case.** Two particles rest; the second timestep lists them the other way round. By their ids nobody moves, and the
mean squared displacement of the only cell comes out as `3/2`. -/
theorem C126_witness (p : Profile) (kind : Kind) (st : Stats ℝ) (hst : st.times = timesOf (fun i => 0 + (i : ℝ) * 1) 2) :
    ∃ (d d' : Dm (Timestep ℝ)) (g' : Grid ℝ), Dm.new p kind swapped 2 Timestep.default = .ok d ∧
      Along d restPath ∧ (∀ k t t' a, restPath k t a = restPath k t' a) ∧
      msdField p d st (Grid.newCart (fun _ => 1) (finLimits (fun _ => 0) (fun _ => 4))) Selector.default (fin 1) = .ok (d', g') ∧
      g'.st.data.get (fun _ => 0) = fin (3 / 2) := by
  obtain ⟨d, e, hd, hf, hn⟩ := Dm.canLook_new p kind swapped 2 Timestep.default (by norm_num) (by norm_num) (Or.inr (by norm_num [BUFFERSIZE]))
  set grid : Grid ℝ := Grid.newCart (fun _ => 1) (finLimits (fun _ => 0) (fun _ => 4)) with hgrid
  have hfill : grid.Fillable p := fillable_cart p _ (isCart_new _ _ (fun _ => by norm_num))
  have hleads : d.leads p Selector.default st (fin 1) (List.range (d.n - 1)) = [(0, 0, 1), (0, 1, 1)] := by
    unfold Dm.leads
    rw [hf, hn]
    exact swapped_leads p st hst
  let val : ℕ → ℝ := fun k => if k % 2 = 0 then 0 else 1 / 2
  obtain ⟨d', g', D, h1, _, _, _, _, hD, h2⟩ := C44_msd_partial p d hd st (fun i => 0 + (i : ℝ) * 1)
    (by rw [hf, hn]; exact swapped_clocked st 2 hst) grid hfill (fun _ => rfl) Selector.default usable_default
    (fun t _ => by rw [hf]; exact swapped_wf t) 2 (fun t _ => by rw [hf]; unfold swapped; dsimp only; split_ifs <;> rfl) 1
    (fun x _ => val (x.1 + x.2.1)) (fun x _ => val (x.2.2 + x.2.1))
    (by
      intro x hx _ a
      rw [hleads] at hx
      simp only [List.mem_cons, List.not_mem_nil, or_false] at hx
      have hi : x.2.1 < 2 := by rcases hx with rfl | rfl <;> norm_num
      unfold startOf endOf
      rw [hf]
      exact ⟨congrFun (swapped_pos x.1 x.2.1 hi) a, congrFun (swapped_pos x.2.2 x.2.1 hi) a⟩)
  refine ⟨d, d', g', e, swapped_rests d hf, fun _ _ _ _ => rfl, h1, ?_⟩
  have hin : ∀ v : ℝ, 0 ≤ v → v ≤ 1 → inCell p grid.geom (fun _ => fin v) (fun _ => 0) = true := by
    intro v h0 hv
    have hins : grid.geom.isInside (fun _ => fin v) = true :=
      (cart_inside _ _ _ (fun _ => v)).2 fun a => ⟨h0, by linarith⟩
    obtain ⟨c, hc, hb⟩ := hfill.2.isSome hins
    have : c = fun _ => 0 := by
      funext a
      have : c a < 1 := hb a
      omega
    unfold inCell
    rw [hins, hc, this]
    simp
  have hS : ((d.leads p Selector.default st (fin 1) (List.range (d.n - 1))).filter fun x =>
      inCell p grid.geom (startOf d.file x) (fun _ => 0)) = [(0, 0, 1), (0, 1, 1)] := by
    rw [hleads, List.filter_eq_self]
    intro x hx
    simp only [List.mem_cons, List.not_mem_nil, or_false] at hx
    have hi : x.2.1 < 2 := by rcases hx with rfl | rfl <;> norm_num
    unfold startOf
    rw [hf, swapped_pos x.1 x.2.1 hi]
    apply hin <;> split_ifs <;> norm_num
  have k := h2 (fun _ => 0) (fun _ => Nat.one_pos)
  dsimp only at k
  rw [hS] at k
  rw [k.2.2.1 (by simp)]
  congr 1
  have v0 := hD (0, 0, 1)
  have v1 := hD (0, 1, 1)
  have e0 : val 0 = 0 := rfl
  have e1 : val 1 = 1 / 2 := rfl
  have e2 : val 2 = 0 := rfl
  dsimp only at v0 v1
  norm_num [e0, e1, e2] at v0 v1
  have : D (0, 0, 1) = D (0, 1, 1) := by
    have h : (D (0, 0, 1) - D (0, 1, 1)) * (D (0, 0, 1) + D (0, 1, 1)) = 0 := by nlinarith
    rcases mul_eq_zero.1 h with h | h
    · linarith
    · linarith
  simp only [List.map_cons, List.map_nil, List.sum_cons, List.sum_nil, List.length_cons, List.length_nil]
  rw [this]
  push_cast
  nlinarith

/-- Two particles; in the second timestep the one listed second is gone. -/
noncomputable def deserted (t : ℕ) : Timestep ℝ :=
  if t = 0 then swapped 0
  else ⟨fin t, [fun _ => fin 0], [fun _ => fin 0], [fin 1], [fin 1], [fin 0], [fin 0], [fin 0]⟩

/-- **C126, a concrete recording that raises.** -/
example (p : Profile) (kind : Kind) (st : Stats ℝ) (hst : st.times = timesOf (fun i => 0 + (i : ℝ) * 1) 2) :
    ∃ d : Dm (Timestep ℝ), Dm.new p kind deserted 2 Timestep.default = .ok d ∧
      ∃ e, msdField p d st (Grid.newCart (fun _ => 1) (finLimits (fun _ => 0) (fun _ => 4))) Selector.default (fin 1) = .error e := by
  obtain ⟨d, e, hd, hf, hn⟩ := Dm.canLook_new p kind deserted 2 Timestep.default (by norm_num) (by norm_num) (Or.inr (by norm_num [BUFFERSIZE]))
  have hc : Clocked st deserted 2 (fun i => 0 + (i : ℝ) * 1) :=
    ⟨hst, fun t _ => by unfold deserted; split_ifs with h <;> simp [swapped, h], fun i j h _ => by simpa using h⟩
  have hw : ∀ t, (deserted t).Wf := fun t => by
    unfold deserted
    split_ifs
    · exact swapped_wf 0
    · exact ⟨rfl, rfl, rfl, rfl, rfl, rfl⟩
  refine ⟨d, e, (C126_leaving_panics p st Selector.default usable_default 1 _
    (fillable_cart p _ (isCart_new _ _ (fun _ => by norm_num))) d hd (fun i => 0 + (i : ℝ) * 1) (by rw [hf, hn]; exact hc)
    (fun t _ => by rw [hf]; exact hw t) 0 1 1 (by rw [hn]; norm_num) ?_ ?_ ?_ ?_).1⟩
  · unfold Dm.samples
    rw [mem_samples, hf, hn]
    refine ⟨List.mem_range.2 (by norm_num), ?_⟩
    have h : (Selector.default : Selector ℝ).timestepValid (deserted 0).time = true := demo_time 0 (by norm_num)
    refine ⟨?_, ?_, ?_⟩ <;> first | exact h | exact chosen_default _ _ | (simp [deserted, swapped])
  · rw [hf]
    have := partner_uniform p st deserted 2 1 0 (by norm_num) hc (by norm_num) 1 0 (by norm_num)
    simpa using this
  · rw [hf]
    have : (deserted 0).pos 1 = fun _ => fin (1 / 2) := by
      unfold deserted; rw [if_pos rfl, swapped_pos 0 1 (by norm_num)]; norm_num
    rw [this]
    exact (cart_inside _ _ _ (fun _ => (1 / 2 : ℝ))).2 fun a => ⟨by norm_num, by norm_num⟩
  · rw [hf]; exact Nat.le_refl 1

/-- Witness for the partial theorems: the demo recording lists the same id in every timestep and follows a path. -/
example (p : Profile) (kind : Kind) : ∃ d : Dm (Timestep ℝ), Dm.new p kind demoFile 4 Timestep.default = .ok d ∧ d.CanLook ∧
    SameIds d [fin 1] ∧ Along d (fun _ t _ => (t : ℝ) / 2) ∧
    ∃ d' g' m, dispersion p d demoStats (Grid.newCart (fun _ => 1) (finLimits (fun _ => 0) (fun _ => 4))) Selector.default (fin 1) = .ok (d', g', m) := by
  obtain ⟨d, e, hd, hf, hn⟩ := Dm.canLook_new p kind demoFile 4 Timestep.default (by norm_num) (by norm_num) (Or.inr (by norm_num [BUFFERSIZE]))
  have hids : SameIds d [fin 1] := fun t _ => by rw [hf]; rfl
  have hal : Along d (fun _ t _ => (t : ℝ) / 2) := by
    intro t _ i hi a
    rw [hf] at hi ⊢
    obtain rfl : i = 0 := by have : i < 1 := hi; omega
    rfl
  obtain ⟨d', g', m, h, _⟩ := C126_dispersion_partial p d hd demoStats (fun i => 0 + (i : ℝ) * 1)
    (by rw [hf, hn]; exact demo_clocked 4 _ rfl) (Grid.newCart (fun _ => 1) (finLimits (fun _ => 0) (fun _ => 4)))
    (fillable_cart p _ (isCart_new _ _ (fun _ => by norm_num))) (fun _ => rfl) (fun _ => rfl) Selector.default usable_default
    (fun t _ => by rw [hf]; exact demoFile_wf t) [fin 1] hids _ hal 1
  exact ⟨d, e, hd, hids, hal, d', g', m, h⟩

end Up4
