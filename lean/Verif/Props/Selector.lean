import Verif.Model.Selector
import Verif.Proofs.Store
import Verif.Binary64

set_option linter.unusedSectionVars false

/-! # C25–C27: the particle selector -/

namespace Up4
open F

variable {K : Type} [Field K] [LinearOrder K] [IsStrictOrderedRing K] [FloorRing K] [Arith K]

/-- IEEE equality is equality of non-NaN values. -/
theorem eqB_iff (a b : F K) : F.eqB a b = true ↔ a = b ∧ b ≠ F.nan := by
  cases a <;> cases b <;> simp [F.eqB]

theorem eqB_eq (a b : F K) : F.eqB a b = decide (a = b ∧ b ≠ F.nan) := by
  rw [Bool.eq_iff_iff, eqB_iff, decide_eq_true_iff]

theorem containsF_eq (l : List (F K)) (x : F K) :
    Selector.containsF l x = decide (x ∈ l ∧ x ≠ F.nan) := by
  rw [Bool.eq_iff_iff, decide_eq_true_iff]
  unfold Selector.containsF
  simp only [List.any_eq_true, eqB_iff]
  constructor
  · rintro ⟨y, hy, rfl, hn⟩; exact ⟨hy, hn⟩
  · rintro ⟨h, hn⟩; exact ⟨x, h, rfl, hn⟩

/-! ### Specification of a filter -/

/-- What a user means by a filter: one value — exactly it; two values — the closed range; more values —
one of them.  A NaN attribute is never accepted. -/
def Accepts {α : Type} [LE α] (bad : α → Prop) (l : List α) (x : α) : Prop :=
  ¬ bad x ∧ ((∃ v, l = [v] ∧ x = v) ∨ (∃ a b, l = [a, b] ∧ a ≤ x ∧ x ≤ b) ∨ (3 ≤ l.length ∧ x ∈ l))

/-- A float filter: NaN is bad. -/
abbrev AcceptsF (l : List (F K)) (x : F K) : Prop := Accepts (· = F.nan) l x
/-- An id filter. -/
abbrev AcceptsId (l : List ℕ) (x : ℕ) : Prop := Accepts (fun _ => False) l x

/-- `[-1, …]` switches a float filter off. -/
def OffF (l : List (F K)) : Prop := l.head? = some (-1)
/-- `[0, …]` switches the id filter off. -/
def OffId (l : List ℕ) : Prop := l.head? = some 0

theorem neg_one_ne_nan : (-1 : F K) ≠ F.nan := by
  change (F.neg (F.fin 1) : F K) ≠ F.nan
  simp [F.neg]

/-! ### C25 -/

/-- **C25.** The default selector accepts every particle, whatever its attributes (NaN included). -/
theorem C25_default_accepts (r c d : F K) (i : ℕ) :
    (Selector.default : Selector K).isValid r c d i = .ok true := by
  have h : F.eqB (-1 : F K) (-1) = true := (eqB_iff _ _).2 ⟨rfl, neg_one_ne_nan⟩
  simp [Selector.isValid, Selector.default, Selector.isRadiusValid, Selector.isCloudValid,
    Selector.isDensityValid, Selector.isParticleidValid, Selector.at', h, bind, Except.bind, pure, Except.pure]

/-- **C25.** Its time window is exactly `[-f64::MAX, f64::MAX]`. -/
theorem C25_default_time (t : F K) :
    (Selector.default : Selector K).timestepValid t = true ↔ ∃ x, t = F.fin x ∧ |x| ≤ Arith.maxK := by
  unfold Selector.timestepValid Selector.default
  simp only [Bool.and_eq_true, decide_eq_true_eq, ge_iff_le]
  cases t with
  | nan => simp
  | ninf => simp
  | pinf => simp
  | fin x => simp [abs_le]

/-- **C25, binary64.** Every finite `f64` time is accepted. -/
theorem C25_default_time_b64 (x : B64) (hx : Arith.rnd x = F.fin x) :
    (Selector.default : Selector B64).timestepValid (F.fin x) = true :=
  (C25_default_time _).2 ⟨x, rfl, B64.abs_le_max hx⟩

/-- Witness: `3/2` is a finite `f64`. -/
example : Arith.rnd (3 / 2 : B64) = F.fin (3 / 2) := by
  have := LawfulArith.rnd_dyadic (K := B64) 3 1 (by norm_num) (by norm_num)
  simpa using this

/-! ### C26 -/

/-- The common shape of the four filter functions: `up` is the upper end used for the range, `len` the
length consulted. -/
theorem filter_core {l : List (F K)} (hl : l ≠ []) {len : ℕ} {up : Run (F K)} (x : F K)
    (hlen : l.length ≠ 1 → (len = 2 ↔ l.length = 2)) (hup : l.length = 2 → up = Selector.at' l 1) :
    ∃ b, (do
      let r0 ← Selector.at' l 0
      if F.eqB r0 (-1) then pure true
      else if l.length = 1 then pure (F.eqB x r0)
      else if len = 2 then
        if x ≥ r0 then do
          let r1 ← up
          pure (decide (x ≤ r1))
        else pure false
      else pure (Selector.containsF l x) : Run Bool) = .ok b ∧ (b = true ↔ (OffF l ∨ AcceptsF l x)) := by
  have at0 : ∀ (a : F K) l', Selector.at' (a :: l') 0 = .ok a := fun _ _ => rfl
  have h1 : F.eqB (-1 : F K) (-1) = true := (eqB_iff _ _).2 ⟨rfl, neg_one_ne_nan⟩
  obtain ⟨a, t, rfl⟩ := List.exists_cons_of_ne_nil hl
  rw [at0, run_bind_ok]
  by_cases hv : a = -1
  · subst hv
    rw [if_pos h1]
    exact ⟨true, rfl, by simp [OffF]⟩
  rw [if_neg (by rw [eqB_iff]; tauto)]
  have hoff : ¬ OffF (a :: t) := by simp [OffF, hv]
  match t with
  | [] =>
    refine ⟨_, rfl, ?_⟩
    rw [eqB_iff]
    simp only [hoff, false_or, Accepts]
    constructor
    · rintro ⟨rfl, h⟩; exact ⟨h, Or.inl ⟨_, rfl, rfl⟩⟩
    · rintro ⟨h, ⟨v, e, rfl⟩ | ⟨u, v, e, _⟩ | ⟨e, _⟩⟩
      · simp at e; exact ⟨e.symm, by rw [e]; exact h⟩
      · simp at e
      · simp at e
  | [b] =>
    have e2 : len = 2 := (hlen (by simp)).2 rfl
    rw [if_neg (by simp), if_pos e2, hup rfl]
    have at1 : Selector.at' [a, b] 1 = .ok b := rfl
    rw [at1, run_bind_ok]
    have spec : AcceptsF [a, b] x ↔ a ≤ x ∧ x ≤ b := by
      constructor
      · rintro ⟨h, ⟨v, e, rfl⟩ | ⟨u, v, e, h1, h2⟩ | ⟨e, _⟩⟩
        · simp at e
        · simp at e; obtain ⟨rfl, rfl⟩ := e; exact ⟨h1, h2⟩
        · simp at e
      · rintro ⟨h1, h2⟩
        refine ⟨?_, Or.inr (Or.inl ⟨a, b, rfl, h1, h2⟩)⟩
        rintro rfl; simp at h1
    by_cases hx : a ≤ x
    · rw [if_pos hx]
      exact ⟨_, rfl, by simp [hoff, spec, hx]⟩
    · rw [if_neg hx]
      exact ⟨_, rfl, by simp [hoff, spec, hx]⟩
  | b :: c :: t =>
    have e2 : len ≠ 2 := fun h => by have := (hlen (by simp)).1 h; simp at this
    rw [if_neg (by simp), if_neg e2]
    refine ⟨_, rfl, ?_⟩
    rw [containsF_eq, decide_eq_true_iff]
    simp only [hoff, false_or, Accepts]
    constructor
    · rintro ⟨h1, h2⟩; exact ⟨h2, Or.inr (Or.inr ⟨by simp, h1⟩)⟩
    · rintro ⟨h, ⟨v, e, rfl⟩ | ⟨u, v, e, _⟩ | ⟨_, e⟩⟩
      · simp at e
      · simp at e
      · exact ⟨e, h⟩

/-- **C26 (radius).** For every non-empty filter, `is_radius_valid` does not panic and accepts exactly what
the filter means. -/
theorem C26_radius (s : Selector K) (h : s.radius ≠ []) (x : F K) :
    ∃ b, s.isRadiusValid x = .ok b ∧ (b = true ↔ (OffF s.radius ∨ AcceptsF s.radius x)) :=
  filter_core h x (fun _ => Iff.rfl) (fun _ => rfl)

/-- The id filter, same shape. -/
theorem C26_particleid (s : Selector K) (h : s.particleid ≠ []) (x : ℕ) :
    ∃ b, s.isParticleidValid x = .ok b ∧ (b = true ↔ (OffId s.particleid ∨ AcceptsId s.particleid x)) := by
  unfold Selector.isParticleidValid
  obtain ⟨a, t, hat⟩ := List.exists_cons_of_ne_nil h
  rw [hat]
  have at0 : Selector.at' (a :: t) 0 = .ok a := rfl
  rw [at0, run_bind_ok]
  by_cases hv : a = 0
  · subst hv
    exact ⟨true, rfl, by simp [OffId]⟩
  rw [if_neg hv]
  have hoff : ¬ OffId (a :: t) := by simp [OffId, hv]
  clear at0
  match t with
  | [] =>
    refine ⟨_, rfl, ?_⟩
    simp only [hoff, false_or, Accepts, decide_eq_true_iff]
    constructor
    · rintro rfl; exact ⟨id, Or.inl ⟨_, rfl, rfl⟩⟩
    · rintro ⟨_, ⟨v, e, rfl⟩ | ⟨u, v, e, _⟩ | ⟨e, _⟩⟩
      · simp at e; exact e.symm
      · simp at e
      · simp at e
  | [b] =>
    have at1 : Selector.at' [a, b] 1 = .ok b := rfl
    rw [if_neg (by simp), if_pos (by simp), at1, run_bind_ok]
    have spec : AcceptsId [a, b] x ↔ a ≤ x ∧ x ≤ b := by
      constructor
      · rintro ⟨h, ⟨v, e, rfl⟩ | ⟨u, v, e, h1, h2⟩ | ⟨e, _⟩⟩
        · simp at e
        · simp at e; obtain ⟨rfl, rfl⟩ := e; exact ⟨h1, h2⟩
        · simp at e
      · rintro ⟨h1, h2⟩
        exact ⟨id, Or.inr (Or.inl ⟨a, b, rfl, h1, h2⟩)⟩
    by_cases hx : a ≤ x
    · rw [if_pos hx]
      exact ⟨_, rfl, by simp [hoff, spec, hx]⟩
    · rw [if_neg hx]
      exact ⟨_, rfl, by simp [hoff, spec, hx]⟩
  | b :: c :: t =>
    rw [if_neg (by simp), if_neg (by simp)]
    refine ⟨_, rfl, ?_⟩
    simp only [hoff, false_or, Accepts, List.contains_iff_mem]
    constructor
    · intro h1; exact ⟨id, Or.inr (Or.inr ⟨by simp, h1⟩)⟩
    · rintro ⟨h, ⟨v, e, rfl⟩ | ⟨u, v, e, _⟩ | ⟨_, e⟩⟩
      · simp at e
      · simp at e
      · exact e

/-- **C26 (clouds), partial.** Full property: `is_cloud_valid` accepts exactly what the cloud filter means.
Proved when the filter is a single value, or the radius filter has two entries exactly when the cloud filter
has; otherwise see `C26_cloud_false`. -/
theorem C26_cloud_partial (s : Selector K) (h : s.clouds ≠ [])
    (hlen : s.clouds.length ≠ 1 → (s.radius.length = 2 ↔ s.clouds.length = 2)) (x : F K) :
    ∃ b, s.isCloudValid x = .ok b ∧ (b = true ↔ (OffF s.clouds ∨ AcceptsF s.clouds x)) :=
  filter_core h x hlen (fun _ => rfl)

/-- **C26 (density), partial.** Full property: `is_density_valid` accepts exactly what the density filter
means. Proved when the filter is a single value, or is a list of three or more while the radius filter has not
two entries, or both are ranges with the same upper end. -/
theorem C26_density_partial (s : Selector K) (h : s.density ≠ [])
    (hlen : s.density.length ≠ 1 → (s.radius.length = 2 ↔ s.density.length = 2))
    (hup : s.density.length = 2 → s.radius[1]? = s.density[1]?) (x : F K) :
    ∃ b, s.isDensityValid x = .ok b ∧ (b = true ↔ (OffF s.density ∨ AcceptsF s.density x)) :=
  filter_core h x hlen (fun e => by unfold Selector.at'; rw [hup e])

/-- **C26.** `is_valid` is the conjunction of the four filters (filters non-empty, and the cloud and density
filters meeting the conditions of the partial theorems). -/
theorem C26_valid_partial (s : Selector K) (hr : s.radius ≠ []) (hc : s.clouds ≠ []) (hd : s.density ≠ [])
    (hi : s.particleid ≠ [])
    (hclen : s.clouds.length ≠ 1 → (s.radius.length = 2 ↔ s.clouds.length = 2))
    (hdlen : s.density.length ≠ 1 → (s.radius.length = 2 ↔ s.density.length = 2))
    (hup : s.density.length = 2 → s.radius[1]? = s.density[1]?) (r c d : F K) (i : ℕ) :
    ∃ b, s.isValid r c d i = .ok b ∧ (b = true ↔
      (OffF s.radius ∨ AcceptsF s.radius r) ∧ (OffF s.clouds ∨ AcceptsF s.clouds c) ∧
      (OffF s.density ∨ AcceptsF s.density d) ∧ (OffId s.particleid ∨ AcceptsId s.particleid i)) := by
  obtain ⟨b1, e1, h1⟩ := C26_radius s hr r
  obtain ⟨b2, e2, h2⟩ := C26_cloud_partial s hc hclen c
  obtain ⟨b3, e3, h3⟩ := C26_density_partial s hd hdlen hup d
  obtain ⟨b4, e4, h4⟩ := C26_particleid s hi i
  rw [← h1, ← h2, ← h3, ← h4]
  unfold Selector.isValid
  rw [e1, e2, e3, e4]
  cases b1 <;> cases b2 <;> cases b3 <;> cases b4 <;> exact ⟨_, rfl, by simp⟩

/-- Witness for `C26_valid_partial`: a selector with ranges everywhere meets its hypotheses and separates
particles. -/
example : let s : Selector ℝ := ⟨(0, 1), [fin 1, fin 2], [fin 0, fin 5], [fin 1, fin 2], [3, 5]⟩
    s.isValid (fin 1) (fin 4) (fin 2) 4 = .ok true ∧ s.isValid (fin 1) (fin 4) (fin 2) 6 ≠ .ok true := by
  intro s
  have key := C26_valid_partial s (by simp [s]) (by simp [s]) (by simp [s]) (by simp [s]) (by simp [s])
    (by simp [s]) (by simp [s])
  constructor
  · obtain ⟨b, e, h⟩ := key (fin 1) (fin 4) (fin 2) 4
    rw [e]
    congr 1
    refine h.2 ⟨Or.inr ⟨by simp, Or.inr (Or.inl ⟨_, _, rfl, ?_, ?_⟩)⟩, Or.inr ⟨by simp, Or.inr (Or.inl ⟨_, _, rfl, ?_, ?_⟩)⟩,
      Or.inr ⟨by simp, Or.inr (Or.inl ⟨_, _, rfl, ?_, ?_⟩)⟩, Or.inr ⟨by simp, Or.inr (Or.inl ⟨_, _, rfl, ?_, ?_⟩)⟩⟩ <;>
      first | (rw [F.le_fin]; norm_num) | norm_num
  · obtain ⟨b, e, h⟩ := key (fin 1) (fin 4) (fin 2) 6
    rw [e]
    intro hb
    injection hb with hb
    obtain ⟨_, _, _, h4⟩ := h.1 hb
    rcases h4 with h4 | ⟨_, ⟨v, e, _⟩ | ⟨u, v, e, _, h⟩ | ⟨e, _⟩⟩
    · simp [OffId, s] at h4
    · simp [s] at e
    · simp [s] at e; omega
    · simp [s] at e

/-- **C26 fails for clouds**: with the default radius filter, a cloud range `[0, 2]` rejects the cloud `1`
inside it. -/
theorem C26_cloud_false [LawfulArith K] : ∃ s : Selector K, s.radius = [-1] ∧ s.clouds = [fin 0, fin 2] ∧
    AcceptsF s.clouds (fin 1) ∧ s.isCloudValid (fin 1) = .ok false := by
  refine ⟨⟨(0, 1), [-1], [fin 0, fin 2], [-1], [0]⟩, rfl, rfl,
    ⟨by simp, Or.inr (Or.inl ⟨_, _, rfl, by simp, by simp⟩)⟩, ?_⟩
  have h0 : ¬ F.eqB (fin 0 : F K) (-1) = true := by
    rw [eqB_iff, F.one_def, F.neg_fin]; simp
  unfold Selector.isCloudValid
  simp only [Selector.at', List.getElem?_cons_zero, run_bind_ok, h0]
  simp [Selector.containsF, F.eqB, pure, Except.pure]

/-- **C26 fails for densities**: even with a two-value radius filter, the density range `[0, 3]` accepts the
density `5` outside it, because the upper end is taken from the radius filter. -/
theorem C26_density_false [LawfulArith K] : ∃ s : Selector K, s.radius = [fin 1, fin 8] ∧
    s.density = [fin 0, fin 3] ∧ ¬ AcceptsF s.density (fin 5) ∧ ¬ OffF s.density ∧
    s.isDensityValid (fin 5) = .ok true := by
  have h0 : ¬ F.eqB (fin 0 : F K) (-1) = true := by
    rw [eqB_iff, F.one_def, F.neg_fin]; simp
  refine ⟨⟨(0, 1), [fin 1, fin 8], [-1], [fin 0, fin 3], [0]⟩, rfl, rfl, ?_, ?_, ?_⟩
  · rintro ⟨_, ⟨v, e, _⟩ | ⟨u, v, e, _, h⟩ | ⟨e, _⟩⟩
    · simp at e
    · simp at e; obtain ⟨_, rfl⟩ := e
      rw [F.le_fin] at h; norm_num at h
    · simp at e
  · rw [OffF, F.one_def, F.neg_fin]; simp
  · unfold Selector.isDensityValid
    simp only [Selector.at', List.getElem?_cons_zero, run_bind_ok, h0]
    have h5 : (fin 0 : F K) ≤ fin 5 := by rw [F.le_fin]; norm_num
    have h8 : (fin 5 : F K) ≤ fin 8 := by rw [F.le_fin]; norm_num
    simp [h5, h8, pure, Except.pure]

/-- **C26 fails for id 0**: asking for particle `0` alone accepts every particle. -/
theorem C26_id_zero_false (s : Selector K) (h : s.particleid = [0]) (x : ℕ) :
    s.isParticleidValid x = .ok true := by
  unfold Selector.isParticleidValid
  rw [h]; rfl

/-- An empty filter makes the test panic. -/
theorem C26_empty_panics (s : Selector K) (h : s.radius = []) (r c d : F K) (i : ℕ) :
    s.isValid r c d i = .error .index := by
  unfold Selector.isValid Selector.isRadiusValid
  rw [h]; rfl

/-! ### C27 -/

/-- **C27.** After any sequence of `set_time` calls followed by `set_time(a, b)`, exactly the times in the
closed window `[a, b]` are accepted. -/
theorem C27_window (s : Selector K) (hist : List (F K × F K)) (a b t : F K) :
    ((hist.foldl (fun s w => s.setTime w.1 w.2) s).setTime a b).timestepValid t = true ↔ a ≤ t ∧ t ≤ b := by
  simp [Selector.timestepValid, Selector.setTime]

/-- **C27.** A NaN time is never accepted. -/
theorem C27_nan (s : Selector K) : s.timestepValid F.nan = false := by
  simp [Selector.timestepValid]

/-- **C27.** `set_time` changes nothing else: attribute tests are unaffected by any sequence of them. -/
theorem C27_attributes_kept (s : Selector K) (hist : List (F K × F K)) (r c d : F K) (i : ℕ) :
    (hist.foldl (fun s w => s.setTime w.1 w.2) s).isValid r c d i = s.isValid r c d i := by
  induction hist generalizing s with
  | nil => rfl
  | cons w l ih => rw [List.foldl_cons, ih]; rfl

/-- Witness for C27: the window `[0, 1]` accepts `1/2` and rejects `2`. -/
example : ((Selector.default : Selector ℝ).setTime (fin 0) (fin 1)).timestepValid (fin (1 / 2)) = true ∧
    ((Selector.default : Selector ℝ).setTime (fin 0) (fin 1)).timestepValid (fin 2) = false := by
  have h1 := C27_window (Selector.default : Selector ℝ) [] (fin 0) (fin 1)
  refine ⟨(h1 _).2 ⟨?_, ?_⟩, ?_⟩
  · rw [F.le_fin]; norm_num
  · rw [F.le_fin]; norm_num
  · rw [← Bool.not_eq_true, show ((Selector.default : Selector ℝ).setTime (fin 0) (fin 1)).timestepValid (fin 2) = true ↔ _ from h1 _]
    rw [F.le_fin, F.le_fin]; norm_num

end Up4
