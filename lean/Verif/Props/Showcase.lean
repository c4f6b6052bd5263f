import Verif.Props.Accuracy
import Verif.Props.UsedGrid
import Verif.Props.Granular

set_option linter.unusedSectionVars false

/-!
# C107: `mean_velocity_showcase`
-/

namespace Up4
open F
open Selector (at')

variable {K : Type} [Field K] [LinearOrder K] [IsStrictOrderedRing K] [FloorRing K] [Arith K]

/-- Every particle of every timestep whose time lies in the selector's window, in reading order. -/
def Dm.everyone (sel : Selector K) (d : Dm (Timestep K)) : List (ℕ × ℕ) :=
  ((List.range d.n).filter fun t => decide (sel.time.1 ≤ (d.file t).time ∧ (d.file t).time ≤ sel.time.2)).flatMap fun t =>
    (List.range (d.file t).velocity.length).map fun i => (t, i)

/-- The computed speed of a particle. -/
def rawSpeed (v : Fin 3 → F K) : F K := (v 0 * v 0 + v 1 * v 1 + v 2 * v 2).sqrt

/-- The accumulation step of the inner loop. -/
def addSpeed (s : F K × F K) (v : Fin 3 → F K) : F K × F K := if (rawSpeed v).isNaN then s else (s.1 + rawSpeed v, s.2 + 1)

theorem foldl_addSpeed (l : List (Fin 3 → F K)) (s : F K × F K) :
    l.foldl addSpeed s = ((l.filter fun v => !(rawSpeed v).isNaN).map rawSpeed |>.foldl (· + ·) s.1,
      (List.replicate (l.filter fun v => !(rawSpeed v).isNaN).length 1).foldl (· + ·) s.2) := by
  induction l generalizing s with
  | nil => rfl
  | cons v l ih =>
    rw [List.foldl_cons, ih]
    unfold addSpeed
    by_cases h : (rawSpeed v).isNaN = true
    · rw [if_pos h, List.filter_cons_of_neg (by simp [h])]
    · rw [if_neg h, List.filter_cons_of_pos (by simp [h])]
      rfl

theorem map_vel (ts : Timestep K) : (List.range ts.velocity.length).map (fun i => ts.vel i) = ts.velocity := by
  refine List.ext_getElem (by simp) fun i h1 h2 => ?_
  simp only [List.getElem_map, List.getElem_range]
  unfold Timestep.vel
  simp [List.getD, h2]

theorem showcase_steps (sel : Selector K) (file : ℕ → Timestep K) (l : List ℕ) (s : F K × F K) :
    l.foldl (fun s t => meanVelStep sel s (file t)) s =
      (((l.filter fun t => decide (sel.time.1 ≤ (file t).time ∧ (file t).time ≤ sel.time.2)).flatMap fun t =>
        (List.range (file t).velocity.length).map fun i => (t, i)).map (velOf file)).foldl addSpeed s := by
  induction l generalizing s with
  | nil => rfl
  | cons t l ih =>
    rw [List.foldl_cons, ih]
    unfold meanVelStep
    have hv : sel.timestepValid (file t).time = decide (sel.time.1 ≤ (file t).time ∧ (file t).time ≤ sel.time.2) := by
      unfold Selector.timestepValid
      rw [Bool.decide_and]
    rw [hv]
    by_cases h : sel.time.1 ≤ (file t).time ∧ (file t).time ≤ sel.time.2
    · rw [if_pos (by simpa using h), List.filter_cons_of_pos (by simpa using h), List.flatMap_cons, List.map_append, List.foldl_append]
      congr 1
      rw [List.map_map]
      have : (List.range (file t).velocity.length).map (velOf file ∘ fun i => (t, i)) = (file t).velocity := map_vel (file t)
      rw [this]
      rfl
    · rw [if_neg (by simpa using h), List.filter_cons_of_neg (by simpa using h)]

/-- `mean_velocity_showcase` adds up the speeds that are numbers and divides by how many there are. -/
theorem showcase_run [LawfulArith K] (p : Profile) (d : Dm (Timestep K)) (hd : d.Inv) (sel : Selector K)
    (hlen : (d.everyone sel).length ≤ 2 ^ 53) :
    ∃ d', meanVelocityShowcase p d sel = .ok (d',
      let S := (d.everyone sel).filter fun x => !(rawSpeed (velOf d.file x)).isNaN
      F.sum (S.map fun x => rawSpeed (velOf d.file x)) / fin (S.length : K)) ∧ d'.Inv ∧ d'.file = d.file ∧ d'.n = d.n := by
  obtain ⟨b, hb, _, e⟩ := forSteps_eq (K := K) p (List.range d.n) (fun s _ ts => .ok (meanVelStep sel s ts)) d hd
    (fun t ht => List.mem_range.1 ht) ((0, 0) : F K × F K)
  unfold meanVelocityShowcase
  rw [allSteps_eq p d hd, run_bind_ok, e]
  rw [foldlM_pure_run (List.range d.n) (fun s t => meanVelStep sel s (d.file t)), run_bind_ok, run_bind_ok]
  rw [showcase_steps, foldl_addSpeed]
  refine ⟨{ d with main := b }, ?_, ⟨hb, hd.2.1, hd.2.2⟩, rfl, rfl⟩
  change Except.ok _ = Except.ok _
  congr 1
  congr 1
  change _ / _ = _ / _
  change List.foldl _ 0 (List.map rawSpeed (List.filter _ (List.map (velOf d.file) (d.everyone sel)))) /
    List.foldl _ 0 (List.replicate (List.filter _ (List.map (velOf d.file) (d.everyone sel))).length 1) = _
  rw [List.filter_map, List.map_map, List.length_map]
  congr 1
  have h0 := foldl_ones (K := K) 0 ((d.everyone sel).filter ((fun v => !(rawSpeed v).isNaN) ∘ velOf d.file)).length
    (by rw [Nat.zero_add]; exact (List.length_filter_le _ _).trans hlen)
  rw [Nat.cast_zero, Nat.zero_add] at h0
  exact h0

/-- A velocity record without NaN. -/
def complete (v : Fin 3 → F K) : Bool := !(v 0).isNaN && !(v 1).isNaN && !(v 2).isNaN

theorem rawSpeed_nan (v : Fin 3 → F K) (h : complete v = false) : rawSpeed v = F.nan := by
  unfold complete at h
  have : v 0 = F.nan ∨ v 1 = F.nan ∨ v 2 = F.nan := by
    cases h0 : v 0 <;> cases h1 : v 1 <;> cases h2 : v 2 <;> simp_all [F.isNaN]
  unfold rawSpeed
  rcases this with h | h | h <;> rw [h]
  · rw [F.nan_mul, F.nan_add, F.nan_add]; rfl
  · rw [F.nan_mul, F.add_nan, F.nan_add]; rfl
  · rw [F.nan_mul, F.add_nan]; rfl

/-- **C107.** `mean_velocity_showcase` in rounded arithmetic: the mean speed of all particles in the selector's time window, over the
records without NaN, up to a relative error of `(n + 5)·2^-52`; NaN if there are none. The selector's other criteria are not
applied (`C107_false`), so this is what a user gets whose selector restricts the time only (`C107_everyone`). -/
theorem C107_window_partial [LawfulArith K] [RoundedArith K] (p : Profile) (d : Dm (Timestep K)) (hd : d.Inv) (sel : Selector K)
    (hlen : (d.everyone sel).length < 2 ^ 52) (v : ℕ × ℕ → Fin 3 → K)
    (hv : ∀ x ∈ d.everyone sel, complete (velOf d.file x) = true → StoredVel (velOf d.file x) (v x))
    (s : ℕ × ℕ → K) (hs : ∀ x, 0 ≤ s x ∧ s x * s x = v x 0 * v x 0 + v x 1 * v x 1 + v x 2 * v x 2) :
    ∃ d' r, meanVelocityShowcase p d sel = .ok (d', r) ∧ d'.file = d.file ∧ d'.n = d.n ∧
      let S := (d.everyone sel).filter fun x => complete (velOf d.file x)
      (S = [] → r = F.nan) ∧
      (S ≠ [] → ∃ y, r = fin y ∧ |y - avg S s| ≤ (S.length + 5) / 2 ^ 52 * avg S s + 4 / 2 ^ 535) := by
  obtain ⟨d', e, _, h3, h4⟩ := showcase_run p d hd sel (by omega)
  refine ⟨d', _, e, h3, h4, ?_⟩
  have hval : ∀ x ∈ d.everyone sel, complete (velOf d.file x) = true → ∃ w, rawSpeed (velOf d.file x) = fin w ∧ IsDouble w ∧
      |w - s x| ≤ |s x| / 2 ^ 51 + speck K ∧ |s x| ≤ 2 * large K := by
    intro x hx hc
    obtain ⟨vc, hvc, h⟩ := mode_accurate "absolute" _ _ (s x) (hv x hx hc)
      (Or.inr (Or.inr (Or.inr ⟨(hs x).1, Or.inl ⟨rfl, (hs x).2⟩⟩)))
    cases hvc
    exact h
  have hfil : ((d.everyone sel).filter fun x => !(rawSpeed (velOf d.file x)).isNaN) =
      (d.everyone sel).filter fun x => complete (velOf d.file x) := by
    refine List.filter_congr fun x hx => ?_
    by_cases hc : complete (velOf d.file x) = true
    · obtain ⟨w, h, _⟩ := hval x hx hc
      rw [hc, h]; rfl
    · rw [Bool.not_eq_true] at hc
      rw [hc, rawSpeed_nan _ hc]; rfl
  dsimp only
  rw [hfil]
  generalize hS : ((d.everyone sel).filter fun x => complete (velOf d.file x)) = S
  have hSm : ∀ x ∈ S, x ∈ d.everyone sel ∧ complete (velOf d.file x) = true := fun x hx => by
    rw [← hS] at hx; exact List.mem_filter.1 hx
  refine ⟨fun h => ?_, fun hne => ?_⟩
  · rw [h]
    simp [F.sum, F.zero_def, F.div_fin, F.infTimes]
  · have hlenS : S.length < 2 ^ 52 := by rw [← hS]; exact lt_of_le_of_lt (List.length_filter_le _ _) hlen
    classical
    let w : ℕ × ℕ → K := fun x => if h : x ∈ S then (hval x (hSm x h).1 (hSm x h).2).choose else 0
    have hwx : ∀ x ∈ S, rawSpeed (velOf d.file x) = fin (w x) ∧ IsDouble (w x) ∧ |w x - s x| ≤ |s x| / 2 ^ 51 + speck K ∧
        |s x| ≤ 2 * large K := by
      intro x hx
      have e : w x = (hval x (hSm x hx).1 (hSm x hx).2).choose := dif_pos hx
      rw [e]
      exact (hval x (hSm x hx).1 (hSm x hx).2).choose_spec
    obtain ⟨y, e1, e2⟩ := mean_of_rounded S w s hne hlenS (fun x hx => (hwx x hx).2.1) (fun x hx => (hwx x hx).2.2.1)
      (fun x hx => (hwx x hx).2.2.2)
    refine ⟨y, ?_, ?_⟩
    · rw [← e1]
      congr 1
      congr 1
      exact List.map_congr_left fun x hx => (hwx x hx).1
    · unfold avg
      have h1 : (4 : K) / 2 ^ 535 = 4 * speck K := by unfold speck; ring
      have h2 : S.map (fun x => |s x|) = S.map s := List.map_congr_left fun x _ => abs_of_nonneg (hs x).1
      rw [h2] at e2
      rw [h1]
      exact e2

/-- **C107.** In exact arithmetic the result is the mean. -/
theorem C107_exact_partial [LawfulArith K] [ExactArith K] (p : Profile) (d : Dm (Timestep K)) (hd : d.Inv) (sel : Selector K)
    (hlen : (d.everyone sel).length ≤ 2 ^ 53) (v : ℕ × ℕ → Fin 3 → K)
    (hv : ∀ x ∈ d.everyone sel, complete (velOf d.file x) = true → ∀ a, velOf d.file x a = fin (v x a))
    (s : ℕ × ℕ → K) (hs : ∀ x, 0 ≤ s x ∧ s x * s x = v x 0 * v x 0 + v x 1 * v x 1 + v x 2 * v x 2) :
    ∃ d' r, meanVelocityShowcase p d sel = .ok (d', r) ∧
      let S := (d.everyone sel).filter fun x => complete (velOf d.file x)
      (S = [] → r = F.nan) ∧ (S ≠ [] → r = fin (avg S s)) := by
  obtain ⟨d', e, _, _, _⟩ := showcase_run p d hd sel hlen
  refine ⟨d', _, e, ?_⟩
  have hval : ∀ x ∈ d.everyone sel, complete (velOf d.file x) = true → rawSpeed (velOf d.file x) = fin (s x) := by
    intro x hx hc
    have h := hv x hx hc
    unfold rawSpeed
    rw [h 0, h 1, h 2, F.emul, F.emul, F.emul, F.eadd, F.eadd, ← (hs x).2]
    change (if s x * s x < 0 then F.nan else Arith.sqrtK (s x * s x)) = _
    rw [if_neg (not_lt.2 (mul_self_nonneg _))]
    obtain ⟨T, e1, e2, e3⟩ := ExactArith.sqrt_eq (s x * s x) (mul_self_nonneg _)
    rw [e1, (mul_self_inj e2 (hs x).1).1 e3]
  have hfil : ((d.everyone sel).filter fun x => !(rawSpeed (velOf d.file x)).isNaN) =
      (d.everyone sel).filter fun x => complete (velOf d.file x) := by
    refine List.filter_congr fun x hx => ?_
    by_cases hc : complete (velOf d.file x) = true
    · rw [hc, hval x hx hc]; rfl
    · rw [Bool.not_eq_true] at hc
      rw [hc, rawSpeed_nan _ hc]; rfl
  dsimp only
  rw [hfil]
  generalize hS : ((d.everyone sel).filter fun x => complete (velOf d.file x)) = S
  have hSm : ∀ x ∈ S, x ∈ d.everyone sel ∧ complete (velOf d.file x) = true := fun x hx => by
    rw [← hS] at hx; exact List.mem_filter.1 hx
  refine ⟨fun h => ?_, fun hne => ?_⟩
  · rw [h]
    simp [F.sum, F.zero_def, F.div_fin, F.infTimes]
  · have hn0 : (S.length : K) ≠ 0 := by
      have := List.length_pos_iff.2 hne
      exact_mod_cast this.ne'
    rw [List.map_congr_left fun x hx => hval x (hSm x hx).1 (hSm x hx).2]
    have := sum_fin (S.map s)
    rw [List.map_map] at this
    change F.sum (S.map fun x => fin (s x)) = _ at this
    rw [this, F.ediv _ hn0]
    rfl

/-- **C107.** If the selector restricts only the time, everyone in the window is everyone selected. -/
theorem C107_everyone (d : Dm (Timestep K)) (hw : ∀ t, t < d.n → (d.file t).Wf) (a b : F K) :
    d.everyone (Selector.default.setTime a b) = d.samples (Selector.default.setTime a b) := by
  unfold Dm.everyone Dm.samples samples
  have key : ∀ l : List ℕ, (∀ t ∈ l, t < d.n) → (l.filter fun t => decide ((Selector.default.setTime a b).time.1 ≤ (d.file t).time ∧
      (d.file t).time ≤ (Selector.default.setTime a b).time.2)).flatMap (fun t => (List.range (d.file t).velocity.length).map fun i => (t, i)) =
      l.flatMap fun t => ((d.file t).picks (Selector.default.setTime a b)).map fun i => (t, i) := by
    intro l hl
    induction l with
    | nil => rfl
    | cons t l ih =>
      have hi := ih fun t ht => hl t (List.mem_cons_of_mem _ ht)
      rw [List.flatMap_cons, ← hi]
      unfold Timestep.picks
      have hv : (Selector.default.setTime a b).timestepValid (d.file t).time =
          decide ((Selector.default.setTime a b).time.1 ≤ (d.file t).time ∧ (d.file t).time ≤ (Selector.default.setTime a b).time.2) := by
        unfold Selector.timestepValid
        rw [Bool.decide_and]
      rw [hv]
      by_cases h : (Selector.default.setTime a b).time.1 ≤ (d.file t).time ∧ (d.file t).time ≤ (Selector.default.setTime a b).time.2
      · rw [if_pos (by simpa using h), List.filter_cons_of_pos (by simpa using h), List.flatMap_cons]
        congr 2
        have hch : ∀ i, (d.file t).chosen (Selector.default.setTime a b) i = true := fun i => by
          unfold Timestep.chosen
          rw [show (Selector.default.setTime a b).isValid _ _ _ _ = _ from C27_attributes_kept (Selector.default : Selector K) [(a, b)] _ _ _ _,
            C25_default_accepts]
          rfl
        rw [List.filter_eq_self.2 fun i _ => hch i, (hw t (hl t (by simp))).1]
      · rw [if_neg (by simpa using h), List.filter_cons_of_neg (by simpa using h)]
        rfl
  exact key _ fun t ht => List.mem_range.1 ht

/-- Two particles of radius 1 and 2 moving at speeds 1 and 3. -/
def fastSlow : Timestep K :=
  ⟨fin 0, [fun _ => fin 0, fun _ => fin 0], [![fin 1, fin 0, fin 0], ![fin 3, fin 0, fin 0]], [fin 1, fin 2], [fin 1, fin 2], [fin 0, fin 0],
    [fin 0, fin 0], [fin 0, fin 0]⟩

/-- The selector of all particles of radius 1. -/
def onlySmall : Selector K := { (Selector.default : Selector K) with radius := [fin 1] }

/-- **C107 does not hold for selectors with further criteria.** The dataset holds a particle of radius 1 moving at speed 1 and one of radius 2 moving at
speed 3; asked for the mean speed of the particles of radius 1, the answer is 2. -/
theorem C107_false (p : Profile) (kind : Kind) : ∃ d : Dm (Timestep ℝ), Dm.new p kind (fun _ => fastSlow) 1 Timestep.default = .ok d ∧
    d.samples onlySmall = [(0, 0)] ∧ rawSpeed (velOf d.file (0, 0)) = fin 1 ∧
    ∃ d', meanVelocityShowcase p d onlySmall = .ok (d', fin 2) := by
  obtain ⟨d, e, hinv, hf, hn, _⟩ := Dm.new_ok p kind (fun _ => (fastSlow : Timestep ℝ)) 1 Timestep.default (by norm_num) (by norm_num)
  have ht : (onlySmall : Selector ℝ).timestepValid (fastSlow (K := ℝ)).time = true := one_time
  have hev : d.everyone onlySmall = [(0, 0), (0, 1)] := by
    unfold Dm.everyone
    rw [hf, hn]
    have h : (onlySmall : Selector ℝ).time.1 ≤ (fastSlow (K := ℝ)).time ∧ (fastSlow (K := ℝ)).time ≤ (onlySmall : Selector ℝ).time.2 := by
      unfold Selector.timestepValid at ht
      simpa using ht
    have hr : List.range 1 = [0] := rfl
    rw [hr, List.filter_cons_of_pos (by simpa using h)]
    rfl
  have hvel : velOf d.file (0, 0) = ![fin 1, fin 0, fin 0] ∧ velOf d.file (0, 1) = ![fin 3, fin 0, fin 0] := by
    rw [hf]; exact ⟨rfl, rfl⟩
  refine ⟨d, e, ?_, ?_, ?_⟩
  · unfold Dm.samples samples
    rw [hf, hn]
    have hr : List.range 1 = [0] := rfl
    rw [hr]
    have : (fastSlow (K := ℝ)).picks onlySmall = [0] := by
      unfold Timestep.picks
      rw [if_pos ht]
      have km : (-1 : F ℝ) = fin (-1) := by rw [F.one_def]; rfl
      have k1 : F.eqB (fin 1 : F ℝ) (-1) = false := by
        rw [← Bool.not_eq_true, eqB_iff, km]
        rintro ⟨h, _⟩
        injection h with h; norm_num at h
      have k2 : F.eqB (-1 : F ℝ) (-1) = true := (eqB_iff _ _).2 ⟨rfl, neg_one_ne_nan⟩
      have k3 : F.eqB (fin 1 : F ℝ) (fin 1) = true := (eqB_iff _ _).2 ⟨rfl, by simp⟩
      have k4 : F.eqB (fin 2 : F ℝ) (fin 1) = false := by
        rw [← Bool.not_eq_true, eqB_iff]
        rintro ⟨h, _⟩
        injection h with h; norm_num at h
      have h0 : (fastSlow (K := ℝ)).chosen onlySmall 0 = true := by
        simp [Timestep.chosen, onlySmall, fastSlow, Selector.isValid, Selector.default, Selector.isRadiusValid, Selector.isCloudValid,
          Selector.isDensityValid, Selector.isParticleidValid, Selector.at', bind, Except.bind, pure, Except.pure, k1, k2, k3, k4]
      have h1 : (fastSlow (K := ℝ)).chosen onlySmall 1 = false := by
        simp [Timestep.chosen, onlySmall, fastSlow, Selector.isValid, Selector.default, Selector.isRadiusValid, Selector.isCloudValid,
          Selector.isDensityValid, Selector.isParticleidValid, Selector.at', bind, Except.bind, pure, Except.pure, k1, k2, k3, k4]
      change [0, 1].filter _ = _
      rw [List.filter_cons_of_pos h0, List.filter_cons_of_neg (by simp [h1])]
      rfl
    rw [List.flatMap_cons, this]
    rfl
  · rw [hvel.1]
    obtain ⟨T, e1, e2, e3⟩ := sqrt_root (K := ℝ) (x := 1) (by norm_num)
    have : T = 1 := (mul_self_inj e2 (by norm_num)).1 (by rw [e3]; norm_num)
    unfold rawSpeed
    change ((fin 1 * fin 1 + fin 0 * fin 0 + fin 0 * fin 0 : F ℝ)).sqrt = _
    rw [F.emul, F.emul, F.eadd, F.eadd]
    norm_num
    rw [e1, this]
  · obtain ⟨d', r, e1, e2⟩ := C107_exact_partial p d hinv onlySmall (by rw [hev]; norm_num)
      (fun x => if x.2 = 0 then ![1, 0, 0] else ![3, 0, 0])
      (by
        rw [hev]
        intro x hx _ a
        simp only [List.mem_cons, List.not_mem_nil, or_false] at hx
        rcases hx with rfl | rfl
        · rw [hvel.1]; fin_cases a <;> rfl
        · rw [hvel.2]; fin_cases a <;> rfl)
      (fun x => if x.2 = 0 then 1 else 3)
      (fun x => by by_cases h : x.2 = 0 <;> simp [h])
    have hS : (d.everyone onlySmall).filter (fun x => complete (velOf d.file x)) = [(0, 0), (0, 1)] := by
      rw [hev]
      have h0 : complete (velOf d.file (0, 0)) = true := by rw [hvel.1]; rfl
      have h1 : complete (velOf d.file (0, 1)) = true := by rw [hvel.2]; rfl
      simp [h0, h1]
    have h2 := e2.2 (by rw [hS]; simp)
    rw [hS] at h2
    refine ⟨d', ?_⟩
    rw [e1, h2]
    unfold avg
    norm_num

/-- Witness for C107 with rounding: one particle of speed 1, in binary64. -/
example (p : Profile) (kind : Kind) : ∃ (d d' : Dm (Timestep B64)) (y : B64), Dm.new p kind (fun _ => oneStep) 1 Timestep.default = .ok d ∧
    meanVelocityShowcase p d Selector.default = .ok (d', fin y) ∧ |y - 1| ≤ 6 / 2 ^ 52 + 4 / 2 ^ 535 := by
  obtain ⟨d, e, hinv, hS, hw, hv, _⟩ := one_stored p kind
  have hE : d.everyone Selector.default = [(0, 0)] := by
    have h := C107_everyone d hw (Selector.default : Selector B64).time.1 (Selector.default : Selector B64).time.2
    change d.everyone Selector.default = d.samples Selector.default at h
    rw [h, hS]
  have hcomp : complete (velOf d.file (0, 0)) = true := by
    obtain ⟨h0, h1, h2⟩ := (⟨(hv 0).1, (hv 1).1, (hv 2).1⟩ : _ ∧ _ ∧ _)
    unfold complete
    rw [h0, h1, h2]
    simp [F.isNaN]
  obtain ⟨d', r, h1, _, _, _, h2⟩ := C107_window_partial p d hinv Selector.default (by rw [hE]; norm_num) (fun _ => ![1, 0, 0])
    (by rw [hE]; intro x hx _; rw [List.mem_singleton.1 hx]; exact hv) (fun _ => 1) (fun _ => ⟨zero_le_one, by simp⟩)
  have hf : ((d.everyone Selector.default).filter fun x => complete (velOf d.file x)) = [(0, 0)] := by
    rw [hE]; simp [hcomp]
  rw [hf] at h2
  obtain ⟨y, rfl, y2⟩ := h2 (by simp)
  refine ⟨d, d', y, e, h1, ?_⟩
  have a1 : avg [((0 : ℕ), (0 : ℕ))] (fun _ => (1 : B64)) = 1 := by simp [avg]
  change |y - avg [((0 : ℕ), (0 : ℕ))] (fun _ => (1 : B64))| ≤ ((1 : ℕ) + 5) / 2 ^ 52 * avg [((0 : ℕ), (0 : ℕ))] (fun _ => (1 : B64)) + 4 / 2 ^ 535 at y2
  rw [a1, mul_one, Nat.cast_one, show (1 + 5 : B64) = 6 by norm_num] at y2
  exact y2

end Up4
