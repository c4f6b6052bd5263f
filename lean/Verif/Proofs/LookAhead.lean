import Verif.Props.Search
import Verif.Props.Fields

set_option linter.unusedSectionVars false

/-! Time loops with a look-ahead buffer; monotonicity of the time search. -/

namespace Up4
open F
open Selector (at')

variable {K : Type} [Field K] [LinearOrder K] [IsStrictOrderedRing K] [FloorRing K] [Arith K]

/-! ### The time search is monotone -/

theorem rnd_abs [LawfulArith K] (x : K) : (Arith.rnd x : F K).abs = Arith.rnd |x| := by
  have key : ∀ u : K, 0 ≤ u → (Arith.rnd u : F K).abs = Arith.rnd u := by
    intro u hu
    have h := F.fin_le_rnd F.rep_zero hu
    cases hr : (Arith.rnd u : F K) with
    | nan => rfl
    | pinf => rfl
    | ninf => rw [hr] at h; simp at h
    | fin v => rw [hr] at h; simp only [F.le_fin] at h; simp only [F.abs, abs_of_nonneg h]
  rcases le_total 0 x with h | h
  · rw [abs_of_nonneg h, key x h]
  · rw [abs_of_nonpos h, ← key (-x) (by linarith), LawfulArith.rnd_neg]
    cases (Arith.rnd x : F K) <;> simp [F.abs]

/-- Rounded distances are monotone in the true distances. -/
theorem dist_mono [LawfulArith K] {a b c : K} (h : |a - b| ≤ |a - c|) :
    (fin a - fin b : F K).abs ≤ (fin a - fin c : F K).abs := by
  rw [F.sub_fin, F.sub_fin, rnd_abs, rnd_abs]
  exact LawfulArith.rnd_mono _ _ h

/-- The search returns an index of the searched range. -/
theorem searchLoop_range (p : Profile) (times : List (F K)) (x : F K) :
    ∀ (m low high mid k : ℕ), high + 1 - low ≤ m → searchLoop p times x low high mid = .ok (some k) →
      (low ≤ high ∧ low ≤ k ∧ k ≤ high) ∨ (high < low ∧ k = mid) := by
  intro m
  induction m with
  | zero =>
    intro low high mid k hm h
    rw [searchLoop.eq_def, dif_neg (by omega)] at h
    exact Or.inr ⟨by omega, by cases h; rfl⟩
  | succ m ih =>
    intro low high mid k hm h
    by_cases hgo : low ≤ high
    swap
    · rw [searchLoop.eq_def, dif_neg hgo] at h
      exact Or.inr ⟨by omega, by cases h; rfl⟩
    · left
      refine ⟨hgo, ?_⟩
      set q := (low + high) / 2 with hq
      have hq1 : low ≤ q := by omega
      have hq2 : q ≤ high := by omega
      rw [searchLoop.eq_def, dif_pos hgo, ← hq] at h
      clear_value q
      cases ht : times[q]? with
      | none => rw [ht] at h; cases h
      | some t =>
        rw [ht] at h
        dsimp only at h
        split_ifs at h with h1 h2 h3
        · cases h; exact ⟨hq1, hq2⟩
        · have := ih (q + 1) high q k (by omega) h; omega
        · cases p <;> cases h
        · have := ih low (q - 1) q k (by omega) h; omega

/-- A later request is answered with an index at least as large. -/
theorem searchLoop_mono [LawfulArith K] (p : Profile) (τ : ℕ → K) (n : ℕ) {x y : K} (hxy : x ≤ y) :
    ∀ (m low high mid k k' : ℕ), high + 1 - low ≤ m → high < n →
      searchLoop p (timesOf τ n) (fin x) low high mid = .ok (some k) →
      searchLoop p (timesOf τ n) (fin y) low high mid = .ok (some k') → k ≤ k' := by
  intro m
  induction m with
  | zero =>
    intro low high mid k k' hm _ h h'
    rw [searchLoop.eq_def, dif_neg (by omega)] at h h'
    cases h; cases h'; exact le_rfl
  | succ m ih =>
    intro low high mid k k' hm hhn h h'
    by_cases hgo : low ≤ high
    swap
    · rw [searchLoop.eq_def, dif_neg hgo] at h h'
      cases h; cases h'; exact le_rfl
    · set q := (low + high) / 2 with hq
      have hq1 : low ≤ q := by omega
      have hq2 : q ≤ high := by omega
      rw [searchLoop.eq_def, dif_pos hgo, ← hq] at h h'
      clear_value q
      rw [timesOf_get τ (by omega : q < n)] at h h'
      dsimp only at h h'
      simp only [F.lt_fin] at h h'
      split_ifs at h with h1 h2 h3
      · -- the earlier request stops at `q`
        cases h
        split_ifs at h' with g1 g2 g3
        · cases h'; exact le_rfl
        · have := searchLoop_range p _ _ m (k + 1) high k k' (by omega) h'; omega
        · cases p <;> cases h'
        · exfalso
          apply g1
          refine F.lt_of_le_of_lt' (dist_mono ?_) h1
          rw [abs_of_nonneg (by linarith), abs_of_nonneg (by linarith)]
          linarith
      · -- it goes right
        split_ifs at h' with g1 g2 g3
        · exfalso
          apply h1
          refine F.lt_of_le_of_lt' (dist_mono ?_) g1
          rw [abs_of_neg (by linarith), abs_of_neg (by linarith)]
          linarith
        · exact ih (q + 1) high q k k' (by omega) hhn h h'
        · cases p <;> cases h'
        · exact absurd (lt_of_lt_of_le h2 hxy) g2
      · cases p <;> cases h
      · have hk := searchLoop_range p _ _ m low (q - 1) q k (by omega) h
        split_ifs at h' with g1 g2 g3
        · cases h'; omega
        · have := searchLoop_range p _ _ m (q + 1) high q k' (by omega) h'; omega
        · exact ih low (q - 1) q k k' (by omega) (by omega) h h'

/-- **C32, monotonicity.** Asking for a later time never returns an earlier timestep. -/
theorem C32_monotone [LawfulArith K] (p : Profile) (τ : ℕ → K) (n : ℕ) (hn : 1 ≤ n) (hn' : n ≤ 2 ^ 63) {x y : F K} (hxy : x ≤ y)
    {k k' : ℕ} (h : closest p (timesOf τ n) x = .ok (some k)) (h' : closest p (timesOf τ n) y = .ok (some k')) : k ≤ k' := by
  unfold closest at h h'
  rw [timesOf_length, usub_ok p hn hn', run_bind_ok, timesOf_at τ (by omega), run_bind_ok] at h h'
  by_cases a1 : fin (τ (n - 1)) < x
  · rw [if_pos a1] at h; cases h
  rw [if_neg a1] at h
  by_cases b1 : fin (τ (n - 1)) < y
  · rw [if_pos b1] at h'; cases h'
  rw [if_neg b1] at h'
  rw [timesOf_at τ (by omega), run_bind_ok] at h h'
  by_cases a2 : x < fin (τ 0)
  · rw [if_pos a2] at h; cases h
  rw [if_neg a2] at h
  by_cases b2 : y < fin (τ 0)
  · rw [if_pos b2] at h'; cases h'
  rw [if_neg b2] at h'
  have hx : ∃ u, x = fin u := by
    cases x with
    | nan => simp at hxy
    | ninf => simp at a2
    | pinf => simp at a1
    | fin u => exact ⟨u, rfl⟩
  have hy : ∃ u, y = fin u := by
    cases y with
    | nan => simp at hxy
    | ninf => simp at b2
    | pinf => simp at b1
    | fin u => exact ⟨u, rfl⟩
  obtain ⟨u, rfl⟩ := hx
  obtain ⟨v, rfl⟩ := hy
  rw [F.le_fin] at hxy
  exact searchLoop_mono p τ n hxy n 0 (n - 1) _ k k' (by omega) (by omega) h h'

/-- The search never panics on a nondecreasing time array and a request that is not NaN. -/
theorem closest_total [LawfulArith K] (p : Profile) (τ : ℕ → K) (n : ℕ) (hn : 1 ≤ n) (hn' : n ≤ 2 ^ 63)
    (hmono : ∀ i j, i ≤ j → j < n → τ i ≤ τ j) (x : F K) (hx : x ≠ F.nan) :
    ∃ r, closest p (timesOf τ n) x = .ok r ∧ ∀ k, r = some k → k < n := by
  cases x with
  | nan => exact absurd rfl hx
  | fin y =>
    obtain ⟨r, e, _, h⟩ := C32_search p τ n hn hn' y hmono
    exact ⟨r, e, fun k hk => (h k hk).1⟩
  | pinf =>
    refine ⟨none, ?_, fun k hk => by cases hk⟩
    unfold closest
    rw [timesOf_length, usub_ok p hn hn', run_bind_ok, timesOf_at τ (by omega), run_bind_ok, if_pos (by simp)]; rfl
  | ninf =>
    refine ⟨none, ?_, fun k hk => by cases hk⟩
    unfold closest
    rw [timesOf_length, usub_ok p hn hn', run_bind_ok, timesOf_at τ (by omega), run_bind_ok, if_neg (by simp),
      timesOf_at τ (by omega), run_bind_ok, if_pos (by simp)]; rfl

/-! ### Managers that can look ahead -/

/-- Only the library's own look-ahead buffer (name 0) has ever been set up, and the dataset is read by the timestep-based
manager or fits into the buffer. Holds for every manager returned by a constructor on such a dataset, and is kept by all analyses. -/
def Dm.CanLook {T : Type} (d : Dm T) : Prop :=
  d.Inv ∧ (d.names = [] ∨ d.names = [0]) ∧
    (d.kind = .tdata ∨ (d.n ≤ BUFFERSIZE ∧ d.main.lo = 0 ∧ d.main.hi = d.n))

/-- The state between `setup_buffer(0)` and the end of a look-ahead loop: the next look-ahead read may go to index `l` or
beyond. -/
def Dm.Looking {T : Type} (d : Dm T) (l : ℕ) : Prop :=
  d.Inv ∧ d.names = [0] ∧ (d.Ahead [l] ∨ (d.n ≤ BUFFERSIZE ∧ d.Whole))

theorem Dm.canLook_new {T : Type} (p : Profile) (kind : Kind) (file : ℕ → T) (n : ℕ) (dflt : T) (hn : 1 ≤ n) (hn' : n ≤ 2 ^ 50)
    (hk : kind = .tdata ∨ n ≤ BUFFERSIZE) : ∃ d, Dm.new p kind file n dflt = .ok d ∧ d.CanLook ∧ d.file = file ∧ d.n = n := by
  obtain ⟨d, e, hinv, hf, hdn, hkd, hex, hnm, hlo, hhi⟩ := Dm.new_ok p kind file n dflt hn hn'
  refine ⟨d, e, ⟨hinv, Or.inl hnm, ?_⟩, hf, hdn⟩
  rcases hk with rfl | hk
  · exact Or.inl hkd
  · exact Or.inr ⟨by omega, hlo, by omega⟩

theorem Dm.Looking.canLook {T : Type} {d : Dm T} {l : ℕ} (h : d.Looking l) : d.CanLook := by
  obtain ⟨h1, h2, h3⟩ := h
  refine ⟨h1, Or.inr h2, ?_⟩
  rcases h3 with h3 | ⟨h3, h4⟩
  · exact Or.inl h3.1
  · exact Or.inr ⟨h3, h4.1, h4.2.1⟩

theorem Dm.setup_looking {T : Type} (p : Profile) (dflt : T) (d : Dm T) (h : d.CanLook) :
    ∃ d', d.setup p dflt 0 = .ok d' ∧ d'.Looking 0 ∧ d'.file = d.file ∧ d'.n = d.n := by
  obtain ⟨hinv, hnm, hk⟩ := h
  obtain ⟨b, hb, e1, e2, e⟩ := Dm.setup_extra p dflt d hinv 0
  have hI := Dm.setup_inv p dflt 0 hinv e
  have hl := hinv.2.1
  refine ⟨_, e, ?_⟩
  have key : ∀ d' : Dm T, d'.Inv → d'.names = [0] → d'.extra = [b] → d'.main = d.main → d'.kind = d.kind → d'.file = d.file → d'.n = d.n →
      d'.Looking 0 := by
    intro d' i1 i2 i3 i4 i5 i6 i7
    refine ⟨i1, i2, ?_⟩
    rcases hk with hk | ⟨hk, h1, h2⟩
    · left
      refine ⟨i5.trans hk, by rw [i3]; rfl, ?_⟩
      intro i b' l hb' hl'
      rw [i3] at hb'
      cases i with
      | zero =>
        simp only [List.getElem?_cons_zero, Option.some.injEq] at hb' hl'
        subst hb' hl'
        rw [i6, i7]
        exact ⟨hb, by omega⟩
      | succ i => simp at hb'
    · right
      refine ⟨by omega, by rw [i4]; exact h1, by rw [i4, i7]; exact h2, ?_⟩
      intro b' hb'
      rw [i3, List.mem_singleton] at hb'
      subst hb'
      rw [i6, i7]
      exact ⟨hb, e1, by omega⟩
  rcases hnm with hnm | hnm
  · have hm : ¬ (0 ∈ d.names) := by rw [hnm]; simp
    have hex : d.extra = [] := by rw [hnm] at hl; exact List.length_eq_zero_iff.1 hl.symm
    rw [if_neg hm] at hI ⊢
    exact ⟨key _ hI (by simp [hnm]) (by simp [hex]) rfl rfl rfl rfl, rfl, rfl⟩
  · have hm : 0 ∈ d.names := by rw [hnm]; simp
    rw [if_pos hm] at hI ⊢
    have hex : ∃ b0, d.extra = [b0] := by rw [hnm] at hl; exact List.length_eq_one_iff.1 hl.symm
    obtain ⟨b0, hex⟩ := hex
    refine ⟨key _ hI hnm ?_ rfl rfl rfl rfl, rfl, rfl⟩
    simp [hnm, hex, List.findIdx_cons]

theorem Dm.get_looking [LawfulArith K] {T : Type} (p : Profile) (d : Dm T) (l : ℕ) (h : d.Looking l) (t : ℕ) (ht : t < d.n) :
    ∃ d', d.get K p t = .ok (d', d.file t) ∧ d'.Looking l ∧ d'.file = d.file ∧ d'.n = d.n := by
  obtain ⟨hinv, hnm, hk⟩ := h
  obtain ⟨b, e, hb, hbw⟩ := Dm.get_ok (K := K) p d hinv t ht
  refine ⟨_, e, ⟨⟨hb, hinv.2⟩, hnm, ?_⟩, rfl, rfl⟩
  rcases hk with hk | ⟨hk, hw⟩
  · exact Or.inl hk
  · obtain ⟨w1, w2⟩ := hbw hk hw.1 hw.2.1
    exact Or.inr ⟨hk, w1, w2, hw.2.2⟩

theorem Dm.getBuf_looking {T : Type} (p : Profile) (d : Dm T) (l : ℕ) (h : d.Looking l) (t : ℕ) (ht : t < d.n) (hlt : l ≤ t) :
    ∃ d', d.getBuf p t 0 = .ok (d', d.file t) ∧ d'.Looking t ∧ d'.file = d.file ∧ d'.n = d.n := by
  obtain ⟨hinv, hnm, hk⟩ := h
  have hl := hinv.2.1
  have hex : ∃ b0, d.extra = [b0] := by rw [hnm] at hl; exact List.length_eq_one_iff.1 hl.symm
  obtain ⟨b0, hex⟩ := hex
  rcases hk with hk | ⟨hk, hw⟩
  · obtain ⟨b, e, hb, hlo⟩ := Dm.getBuf_ahead p d [l] hinv hk t 0 l ht rfl hlt
    refine ⟨_, e, ⟨Dm.getBuf_inv p t 0 hinv e, hnm, Or.inl ⟨hk.1, by simp [hex], ?_⟩⟩, rfl, rfl⟩
    intro i b' l' hb' hl'
    cases i with
    | zero =>
      simp only [hex, List.set_cons_zero, List.getElem?_cons_zero, Option.some.injEq] at hb' hl'
      subst hb' hl'
      exact ⟨hb, hlo⟩
    | succ i => simp at hl'
  · have e := Dm.getBuf_whole p d hinv hw t 0 ht (by rw [hex]; simp)
    exact ⟨d, e, ⟨hinv, hnm, Or.inr ⟨hk, hw⟩⟩, rfl, rfl⟩

end Up4
