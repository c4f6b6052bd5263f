import Verif.Proofs.LookAhead
import Verif.Proofs.Sums

set_option linter.unusedSectionVars false

/-! Time loops that also read a later timestep (`dispersion`, `msd_field`, `occupancyfield`). -/

namespace Up4
open F
open Selector (at')

variable {K : Type} [Field K] [LinearOrder K] [IsStrictOrderedRing K] [FloorRing K] [Arith K]

/-- The timestep the library pairs with timestep `t` for a time difference `dt`: the answer of the time search (C32, C33) for
the time of `t` plus `dt`; none if the search reports an error. -/
def partner (p : Profile) (times : List (F K)) (file : ℕ → Timestep K) (dt : F K) (t : ℕ) : Option ℕ :=
  match closest p times ((file t).time + dt) with
  | .ok r => r
  | .error _ => none

/-- Samples together with their later timestep: `(t, i, t')`. -/
def leads (sel : Selector K) (file : ℕ → Timestep K) (next : ℕ → Option ℕ) (l : List ℕ) : List (ℕ × ℕ × ℕ) :=
  l.flatMap fun t => match next t with
    | none => []
    | some t' => ((file t).picks sel).map fun i => (t, i, t')

/-- A lead is a sample whose later timestep exists. -/
theorem mem_leads (sel : Selector K) (file : ℕ → Timestep K) (next : ℕ → Option ℕ) (l : List ℕ) (t i t' : ℕ) :
    (t, i, t') ∈ leads sel file next l ↔ (t, i) ∈ samples sel file l ∧ next t = some t' := by
  unfold leads samples
  simp only [List.mem_flatMap, List.mem_map, Prod.mk.injEq]
  constructor
  · rintro ⟨u, hu, h⟩
    cases hn : next u with
    | none => rw [hn] at h; cases h
    | some u' =>
      rw [hn] at h
      simp only [List.mem_map, Prod.mk.injEq] at h
      obtain ⟨j, hj, rfl, rfl, rfl⟩ := h
      exact ⟨⟨u, hu, j, hj, rfl, rfl⟩, hn⟩
  · rintro ⟨⟨u, hu, j, hj, rfl, rfl⟩, hn⟩
    refine ⟨u, hu, ?_⟩
    rw [hn]
    simp only [List.mem_map, Prod.mk.injEq]
    exact ⟨j, hj, by trivial, by trivial, by trivial⟩

theorem leads_nil (sel : Selector K) (file : ℕ → Timestep K) (next : ℕ → Option ℕ) : leads sel file next [] = [] := rfl

theorem leads_cons (sel : Selector K) (file : ℕ → Timestep K) (next : ℕ → Option ℕ) (t : ℕ) (l : List ℕ) :
    leads sel file next (t :: l) = (match next t with
      | none => []
      | some t' => ((file t).picks sel).map fun i => (t, i, t')) ++ leads sel file next l := rfl

/-- The dataset's time array is the list of the timesteps' times, finite and nondecreasing. -/
structure Clocked (st : Stats K) (file : ℕ → Timestep K) (n : ℕ) (τ : ℕ → K) : Prop where
  times : st.times = timesOf τ n
  time : ∀ t, t < n → (file t).time = fin (τ t)
  mono : ∀ i j, i ≤ j → j < n → τ i ≤ τ j

theorem partner_spec [LawfulArith K] (p : Profile) (st : Stats K) (file : ℕ → Timestep K) (n : ℕ) (τ : ℕ → K) (h : Clocked st file n τ)
    (hn : 1 ≤ n) (hn' : n ≤ 2 ^ 63) (δ : K) (t : ℕ) (ht : t < n) :
    closest p st.times ((file t).time + fin δ) = .ok (partner p st.times file (fin δ) t) ∧
      ∀ t', partner p st.times file (fin δ) t = some t' → t' < n := by
  have hnn : (file t).time + fin δ ≠ F.nan := by rw [h.time t ht]; exact LawfulArith.rnd_ne_nan _
  obtain ⟨r, e, hr⟩ := closest_total p τ n hn hn' h.mono _ hnn
  rw [← h.times] at e
  have : partner p st.times file (fin δ) t = r := by unfold partner; rw [e]
  rw [this]
  exact ⟨e, fun t' h' => hr t' h'⟩

theorem partner_mono [LawfulArith K] (p : Profile) (st : Stats K) (file : ℕ → Timestep K) (n : ℕ) (τ : ℕ → K) (h : Clocked st file n τ)
    (hn : 1 ≤ n) (hn' : n ≤ 2 ^ 63) (δ : K) {t u t' u' : ℕ} (htu : t ≤ u) (hu : u < n)
    (ht' : partner p st.times file (fin δ) t = some t') (hu' : partner p st.times file (fin δ) u = some u') : t' ≤ u' := by
  have e1 := (partner_spec p st file n τ h hn hn' δ t (by omega)).1
  have e2 := (partner_spec p st file n τ h hn hn' δ u hu).1
  rw [ht', h.times, h.time t (by omega)] at e1
  rw [hu', h.times, h.time u hu] at e2
  refine C32_monotone p τ n hn hn' ?_ e1 e2
  apply LawfulArith.rnd_mono
  have := h.mono t u htu hu
  linarith

theorem futureLoop_eq [LawfulArith K] {σ : Type} (p : Profile) (st : Stats K) (sel : Selector K) (hs : sel.Usable) (δ : K)
    (body : Timestep K → σ → Timestep K → ℕ → Run σ) (L : List ℕ) (d : Dm (Timestep K)) (τ : ℕ → K) (hc : Clocked st d.file d.n τ)
    (hw : ∀ t, t < d.n → (d.file t).Wf) (l : ℕ) (hd : d.Looking l) (hL : ∀ t ∈ L, t < d.n) (hsort : L.Pairwise (· ≤ ·))
    (hl : ∀ t ∈ L, ∀ t', partner p st.times d.file (fin δ) t = some t' → l ≤ t') (s : σ) :
    ∃ d' l', d'.Looking l' ∧ d'.file = d.file ∧ d'.n = d.n ∧
      futureLoop p st sel (fin δ) body L d s =
        ((leads sel d.file (partner p st.times d.file (fin δ)) L).foldlM (fun s x => body (d.file x.2.2) s (d.file x.1) x.2.1) s >>=
          fun s => .ok (d', s)) := by
  induction L generalizing d l s with
  | nil => exact ⟨d, l, hd, rfl, rfl, rfl⟩
  | cons t L ih =>
    have ht : t < d.n := hL t (by simp)
    have hn : 1 ≤ d.n := by omega
    have hn' : d.n ≤ 2 ^ 63 := le_trans hd.1.2.2 (by norm_num)
    obtain ⟨d1, e1, hd1, hf1, hn1⟩ := Dm.get_looking (K := K) p d l hd t ht
    rw [List.pairwise_cons] at hsort
    have hskip : ∀ s0 : σ, (leads sel d.file (partner p st.times d.file (fin δ)) (t :: L)) = leads sel d.file (partner p st.times d.file (fin δ)) L →
        (do
          let r ← d.get K p t
          if sel.timestepValid r.2.time then do
            match ← closest p st.times (r.2.time + fin δ) with
            | none => pure (r.1, s)
            | some t' => do
              let r' ← r.1.getBuf p t' 0
              let s ← forParticles sel r.2 (fun s i => body r'.2 s r.2 i) s
              pure (r'.1, s)
          else pure (r.1, s)) = (.ok (d1, s) : Run (Dm (Timestep K) × σ)) →
        ∃ d' l', d'.Looking l' ∧ d'.file = d.file ∧ d'.n = d.n ∧
          futureLoop p st sel (fin δ) body (t :: L) d s =
            ((leads sel d.file (partner p st.times d.file (fin δ)) (t :: L)).foldlM (fun s x => body (d.file x.2.2) s (d.file x.1) x.2.1) s >>=
              fun s => .ok (d', s)) := by
      intro _ h1 h2
      obtain ⟨d', l', k1, k2, k3, k4⟩ := ih d1 (by rw [hf1, hn1]; exact hc) (by rw [hf1, hn1]; exact hw) l hd1
        (fun u hu => by rw [hn1]; exact hL u (by simp [hu])) hsort.2 (fun u hu => by rw [hf1]; exact hl u (by simp [hu])) s
      refine ⟨d', l', k1, k2.trans hf1, k3.trans hn1, ?_⟩
      rw [h1]
      rw [hf1] at k4
      rw [← k4]
      unfold futureLoop
      rw [List.foldlM_cons]
      exact (congrArg (· >>= _) h2)
    by_cases hv : sel.timestepValid (d.file t).time = true
    · obtain ⟨c1, c2⟩ := partner_spec p st d.file d.n τ hc hn hn' δ t ht
      cases hp : partner p st.times d.file (fin δ) t with
      | none =>
        rw [hp] at c1
        apply hskip s
        · rw [leads_cons, hp]; rfl
        · rw [e1, run_bind_ok]
          dsimp only
          rw [if_pos hv, c1]
          rfl
      | some t' =>
        rw [hp] at c1
        obtain ⟨d2, e2, hd2, hf2, hn2⟩ := Dm.getBuf_looking p d1 l hd1 t' (by rw [hn1]; exact c2 t' hp) (hl t (by simp) t' hp)
        have hpk : (d.file t).picks sel = (List.range (d.file t).position.length).filter ((d.file t).chosen sel) := by
          unfold Timestep.picks; rw [if_pos hv]
        have hstep : futureLoop p st sel (fin δ) body (t :: L) d s =
            (((d.file t).picks sel).foldlM (fun s i => body (d.file t') s (d.file t) i) s >>= fun s => futureLoop p st sel (fin δ) body L d2 s) := by
          unfold futureLoop
          rw [List.foldlM_cons]
          dsimp only
          rw [e1, run_bind_ok]
          dsimp only
          rw [if_pos hv, c1, run_bind_ok]
          dsimp only
          rw [e2, run_bind_ok]
          dsimp only
          rw [forParticles_eq sel hs _ (hw t ht), hpk, hf1]
          generalize List.foldlM (m := Run) _ _ _ = z
          cases z <;> rfl
        rw [leads_cons, hp]
        dsimp only
        rw [foldlM_append_run, foldlM_map_run, hstep]
        cases hz : ((d.file t).picks sel).foldlM (fun s i => body (d.file t') s (d.file t) i) s with
        | error e => exact ⟨d, l, hd, rfl, rfl, rfl⟩
        | ok s' =>
          have hf : d2.file = d.file := hf2.trans hf1
          have hnn : d2.n = d.n := hn2.trans hn1
          obtain ⟨d', l', k1, k2, k3, k4⟩ := ih d2 (by rw [hf, hnn]; exact hc) (by rw [hf, hnn]; exact hw) t' hd2
            (fun u hu => by rw [hnn]; exact hL u (by simp [hu])) hsort.2
            (fun u hu u' hu' => by
              rw [hf] at hu'
              exact partner_mono p st d.file d.n τ hc hn hn' δ (hsort.1 u hu) (hL u (by simp [hu])) hp hu') s'
          refine ⟨d', l', k1, k2.trans hf, k3.trans hnn, ?_⟩
          rw [run_bind_ok, run_bind_ok, k4, hf]
    · apply hskip s
      · have hpk : (d.file t).picks sel = [] := by unfold Timestep.picks; rw [if_neg hv]
        rw [leads_cons, hpk]
        cases partner p st.times d.file (fin δ) t <;> rfl
      · rw [e1, run_bind_ok]
        dsimp only
        rw [if_neg hv]
        rfl

/-- The loop of `occupancyfield`: every timestep is paired with its successor. -/
theorem occupancyLoop_eq [LawfulArith K] (p : Profile) (sel : Selector K) (hs : sel.Usable) (grid : Grid K) (minV : F K) (m : ℕ)
    (a : ℕ) (d : Dm (Timestep K)) (hw : ∀ t, t < d.n → (d.file t).Wf) (l : ℕ) (hl : l ≤ a + 1) (hd : d.Looking l)
    (hL : a + m < d.n) (s : Grid K × F K) :
    ∃ d' l', d'.Looking l' ∧ d'.file = d.file ∧ d'.n = d.n ∧
      occupancyLoop p sel grid minV (List.range' a m) d s =
        ((samples sel d.file (List.range' a m)).foldlM (fun s x => occupancyBody p grid minV (d.file (x.1 + 1)) s (d.file x.1) x.2) s >>=
          fun s => .ok (d', s)) := by
  induction m generalizing a d l s with
  | zero => exact ⟨d, l, hd, rfl, rfl, rfl⟩
  | succ m ih =>
    obtain ⟨d1, e1, hd1, hf1, hn1⟩ := Dm.get_looking (K := K) p d l hd a (by omega)
    obtain ⟨d2, e2, hd2, hf2, hn2⟩ := Dm.getBuf_looking p d1 l hd1 (a + 1) (by omega) hl
    have hf : d2.file = d.file := hf2.trans hf1
    have hnn : d2.n = d.n := hn2.trans hn1
    rw [List.range'_succ]
    have hstep : occupancyLoop p sel grid minV (a :: List.range' (a + 1) m) d s =
        (((d.file a).picks sel).foldlM (fun s i => occupancyBody p grid minV (d.file (a + 1)) s (d.file a) i) s >>=
          fun s => occupancyLoop p sel grid minV (List.range' (a + 1) m) d2 s) := by
      unfold occupancyLoop
      rw [List.foldlM_cons]
      dsimp only
      rw [e1, run_bind_ok]
      dsimp only
      rw [e2, run_bind_ok]
      dsimp only
      rw [sampleStep_eq sel hs _ (hw a (by omega)), hf1]
      generalize List.foldlM (m := Run) _ _ _ = z
      cases z <;> rfl
    rw [hstep]
    unfold samples at ih ⊢
    rw [List.flatMap_cons, foldlM_append_run, foldlM_map_run]
    cases hz : ((d.file a).picks sel).foldlM (fun s i => occupancyBody p grid minV (d.file (a + 1)) s (d.file a) i) s with
    | error e => exact ⟨d, l, hd, rfl, rfl, by rw [run_bind_error]; rfl⟩
    | ok s' =>
      obtain ⟨d', l', k1, k2, k3, k4⟩ := ih (a + 1) d2 (by rw [hf, hnn]; exact hw) (a + 1) (by omega) hd2 (by rw [hnn]; omega) s'
      refine ⟨d', l', k1, k2.trans hf, k3.trans hnn, ?_⟩
      rw [run_bind_ok, run_bind_ok, k4, hf]

/-! ### Evenly recorded datasets -/

/-- For a dataset recorded every `Δ ≥ 0.01` s the partner for a time difference of `k` recording intervals is the timestep
`k` later; there is none if that is beyond the end. Exact arithmetic. -/
theorem partner_uniform [LawfulArith K] [ExactArith K] (p : Profile) (st : Stats K) (file : ℕ → Timestep K) (n : ℕ) (Δ t0 : K) (hΔ : 1 / 100 ≤ Δ)
    (h : Clocked st file n (fun i => t0 + (i : K) * Δ)) (hn' : n ≤ 2 ^ 63) (k t : ℕ) (ht : t < n) :
    partner p st.times file (fin ((k : K) * Δ)) t = if t + k < n then some (t + k) else none := by
  have hpos : 0 < Δ := lt_of_lt_of_le (by norm_num) hΔ
  have e : (file t).time + fin ((k : K) * Δ) = fin (t0 + ((t + k : ℕ) : K) * Δ) := by
    rw [h.time t ht, F.eadd]; congr 1; push_cast; ring
  unfold partner
  rw [e, h.times]
  by_cases hk : t + k < n
  · have := C33_recorded_partial p (fun i : ℕ => t0 + (i : K) * Δ) n (t + k) hk hn' ?_ ?_
    · rw [this, if_pos hk]
    · intro i j hij _
      have : (i : K) < j := by exact_mod_cast hij
      have := mul_lt_mul_of_pos_right this hpos
      linarith
    · intro i _ hne
      rw [F.esub, F.elit]
      simp only [F.abs, F.lt_fin, not_lt]
      have h3 : (1 : ℤ) ≤ |(i : ℤ) - (t + k : ℕ)| := Int.one_le_abs (by omega)
      have h4 : (1 : K) ≤ |(i : K) - ((t + k : ℕ) : K)| := by exact_mod_cast h3
      have e2 : t0 + (i : K) * Δ - (t0 + ((t + k : ℕ) : K) * Δ) = ((i : K) - ((t + k : ℕ) : K)) * Δ := by ring
      rw [e2, abs_mul, abs_of_pos hpos]
      calc (1 / 100 : K) ≤ Δ := hΔ
        _ = 1 * Δ := by ring
        _ ≤ _ := mul_le_mul_of_nonneg_right h4 hpos.le
  · rw [if_neg hk]
    unfold closest
    rw [timesOf_length, usub_ok p (by omega) hn', run_bind_ok, timesOf_at _ (by omega), run_bind_ok, if_pos ?_]
    · rfl
    · rw [F.lt_fin]
      have : ((n - 1 : ℕ) : K) < ((t + k : ℕ) : K) := by exact_mod_cast (show n - 1 < t + k by omega)
      have := mul_lt_mul_of_pos_right this hpos
      linarith

/-- The demo dataset is clocked with one recording per second. -/
theorem demo_clocked (n : ℕ) (st : Stats ℝ) (hst : st.times = timesOf (fun i => 0 + (i : ℝ) * 1) n) :
    Clocked st demoFile n (fun i => 0 + (i : ℝ) * 1) :=
  ⟨hst, fun t _ => by simp [demoFile], fun i j h _ => by simpa using h⟩

/-- The leads of the demo dataset for a delay of one second. -/
theorem demo_leads (p : Profile) (st : Stats ℝ) (hst : st.times = timesOf (fun i => 0 + (i : ℝ) * 1) 4) :
    leads Selector.default demoFile (partner p st.times demoFile (fin 1)) (List.range 4) = [(0, 0, 1), (1, 0, 2), (2, 0, 3)] := by
  have hp : ∀ t, t < 4 → partner p st.times demoFile (fin 1) t = if t + 1 < 4 then some (t + 1) else none := by
    intro t ht
    have := partner_uniform p st demoFile 4 1 0 (by norm_num) (demo_clocked 4 st hst) (by norm_num) 1 t ht
    simpa using this
  have hk : ∀ t, t ≤ 10 → (demoFile t).picks Selector.default = [0] := by
    intro t ht
    unfold Timestep.picks
    rw [if_pos (demo_time t ht)]
    simp [demoFile, chosen_default]
  have hr : List.range 4 = [0, 1, 2, 3] := rfl
  rw [hr]
  simp only [leads_cons, leads_nil, hp 0 (by norm_num), hp 1 (by norm_num), hp 2 (by norm_num), hp 3 (by norm_num),
    hk 0 (by norm_num), hk 1 (by norm_num), hk 2 (by norm_num), hk 3 (by norm_num)]
  simp

/-- The leads of the demo dataset for a delay of one second, without the last timestep. -/
theorem demo_leads3 (p : Profile) (st : Stats ℝ) (hst : st.times = timesOf (fun i => 0 + (i : ℝ) * 1) 4) :
    leads Selector.default demoFile (partner p st.times demoFile (fin 1)) (List.range 3) = [(0, 0, 1), (1, 0, 2), (2, 0, 3)] := by
  have hp : ∀ t, t < 4 → partner p st.times demoFile (fin 1) t = if t + 1 < 4 then some (t + 1) else none := by
    intro t ht
    have := partner_uniform p st demoFile 4 1 0 (by norm_num) (demo_clocked 4 st hst) (by norm_num) 1 t ht
    simpa using this
  have hk : ∀ t, t ≤ 10 → (demoFile t).picks Selector.default = [0] := by
    intro t ht
    unfold Timestep.picks
    rw [if_pos (demo_time t ht)]
    simp [demoFile, chosen_default]
  have hr : List.range 3 = [0, 1, 2] := rfl
  rw [hr]
  simp only [leads_cons, leads_nil, hp 0 (by norm_num), hp 1 (by norm_num), hp 2 (by norm_num),
    hk 0 (by norm_num), hk 1 (by norm_num), hk 2 (by norm_num)]
  simp

end Up4
