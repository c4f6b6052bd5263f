import Verif.Model.Rotation
import Verif.RealArith
import Verif.Proofs.Store

set_option linter.unusedSectionVars false

/-! # C47, C48: rotations -/

namespace Up4
open F

variable {K : Type} [Field K] [LinearOrder K] [IsStrictOrderedRing K] [FloorRing K] [Arith K]

/-! ### Specification -/

/-- Right-handed turn about the x axis by an angle with sine `s` and cosine `c`. -/
def turnX (s c : K) (v : Fin 3 → K) : Fin 3 → K := ![v 0, c * v 1 - s * v 2, s * v 1 + c * v 2]
/-- About the y axis. -/
def turnY (s c : K) (v : Fin 3 → K) : Fin 3 → K := ![c * v 0 + s * v 2, v 1, c * v 2 - s * v 0]
/-- About the z axis. -/
def turnZ (s c : K) (v : Fin 3 → K) : Fin 3 → K := ![c * v 0 - s * v 1, s * v 0 + c * v 1, v 2]

/-- First about x, then about y, then about z. -/
def turn (s c : Fin 3 → K) (v : Fin 3 → K) : Fin 3 → K := turnZ (s 2) (c 2) (turnY (s 1) (c 1) (turnX (s 0) (c 0) v))

/-- Square of the Euclidean distance. -/
def dist2 (v w : Fin 3 → K) : K := (v 0 - w 0) ^ 2 + (v 1 - w 1) ^ 2 + (v 2 - w 2) ^ 2

theorem dist2_turn (s c : Fin 3 → K) (h : ∀ i, s i * s i + c i * c i = 1) (v w : Fin 3 → K) : dist2 (turn s c v) (turn s c w) = dist2 v w := by
  have key : ∀ (s c x y : K), s * s + c * c = 1 → (c * x - s * y) ^ 2 + (s * x + c * y) ^ 2 = x ^ 2 + y ^ 2 := by
    intro s c x y h
    have : (c * x - s * y) ^ 2 + (s * x + c * y) ^ 2 = (s * s + c * c) * (x ^ 2 + y ^ 2) := by ring
    rw [this, h, one_mul]
  have hX : ∀ (s c : K), s * s + c * c = 1 → ∀ v w, dist2 (turnX s c v) (turnX s c w) = dist2 v w := by
    intro s c h v w
    have := key s c (v 1 - w 1) (v 2 - w 2) h
    simp only [dist2, turnX, Matrix.cons_val_zero, Matrix.cons_val_one, Matrix.cons_val]
    linear_combination this
  have hY : ∀ (s c : K), s * s + c * c = 1 → ∀ v w, dist2 (turnY s c v) (turnY s c w) = dist2 v w := by
    intro s c h v w
    have := key s c (v 2 - w 2) (v 0 - w 0) h
    simp only [dist2, turnY, Matrix.cons_val_zero, Matrix.cons_val_one, Matrix.cons_val]
    linear_combination this
  have hZ : ∀ (s c : K), s * s + c * c = 1 → ∀ v w, dist2 (turnZ s c v) (turnZ s c w) = dist2 v w := by
    intro s c h v w
    have := key s c (v 0 - w 0) (v 1 - w 1) h
    simp only [dist2, turnZ, Matrix.cons_val_zero, Matrix.cons_val_one, Matrix.cons_val]
    linear_combination this
  unfold turn
  rw [hZ _ _ (h 2), hY _ _ (h 1), hX _ _ (h 0)]

theorem rotate_fold [ExactArith K] (θ s c : Fin 3 → K) (hs : ∀ i, Arith.sinK (θ i) = fin (s i)) (hc : ∀ i, Arith.cosK (θ i) = fin (c i))
    (v : Fin 3 → K) : ([0, 1, 2] : List (Fin 3)).foldl (rotateAxis fun i => fin (θ i)) (fun i => fin (v i)) = fun i => fin (turn s c v i) := by
  have hsin : ∀ i, F.sin (fin (θ i)) = fin (s i) := hs
  have hcos : ∀ i, F.cos (fin (θ i)) = fin (c i) := hc
  have hneg : ∀ x : K, -(fin x) = fin (-x) := fun x => rfl
  simp only [List.foldl_cons, List.foldl_nil]
  unfold rotateAxis
  simp only [hsin, hcos, hneg, emul, eadd, esub, Matrix.cons_val_zero, Matrix.cons_val_one, Matrix.cons_val]
  funext i
  unfold turn turnX turnY turnZ
  fin_cases i <;> simp [Matrix.cons_val] <;> ring

/-- **C47.** In exact arithmetic `rotate_position` turns the point about the anchor, right-handedly, by the first angle about the x axis, then by the
second about y, then by the third about z; `rotate_velocity` does the same without an anchor. -/
theorem C47_turn [ExactArith K] (θ s c : Fin 3 → K) (hs : ∀ i, Arith.sinK (θ i) = fin (s i)) (hc : ∀ i, Arith.cosK (θ i) = fin (c i))
    (x a : Fin 3 → K) :
    (rotatePosition (fun i => fin (x i)) (fun i => fin (θ i)) (fun i => fin (a i)) = fun i => fin (a i + turn s c (fun j => x j - a j) i)) ∧
    (rotateVelocity (fun i => fin (x i)) (fun i => fin (θ i)) = fun i => fin (turn s c x i)) := by
  constructor
  · unfold rotatePosition
    simp only [esub]
    rw [rotate_fold θ s c hs hc]
    funext i
    rw [eadd, add_comm]
  · exact rotate_fold θ s c hs hc x

/-- **C47.** Distances between points and from the anchor are preserved, the anchor stays, zero angles change nothing, speeds stay. -/
theorem C47_isometry [ExactArith K] (θ a : Fin 3 → K) : ∃ R V : (Fin 3 → K) → (Fin 3 → K),
    (∀ x, rotatePosition (fun i => fin (x i)) (fun i => fin (θ i)) (fun i => fin (a i)) = fun i => fin (R x i)) ∧
    (∀ v, rotateVelocity (fun i => fin (v i)) (fun i => fin (θ i)) = fun i => fin (V v i)) ∧
    (∀ x y, dist2 (R x) (R y) = dist2 x y) ∧ (∀ x, dist2 (R x) a = dist2 x a) ∧ R a = a ∧
    (∀ v, dist2 (V v) 0 = dist2 v 0) ∧ (θ = 0 → (∀ x, R x = x) ∧ ∀ v, V v = v) := by
  choose s c hs hc h1 using fun i => ExactArith.sin_cos (θ i)
  have hR : turn s c 0 = 0 := by
    funext i; unfold turn turnX turnY turnZ; fin_cases i <;> simp [Matrix.cons_val]
  have hRa : (fun i => a i + turn s c (fun j => a j - a j) i) = a := by
    have : (fun j => a j - a j) = 0 := by funext j; exact sub_self _
    rw [this, hR]; funext i; exact add_zero _
  have hdist : ∀ x y : Fin 3 → K, dist2 (fun i => a i + turn s c (fun j => x j - a j) i) (fun i => a i + turn s c (fun j => y j - a j) i) = dist2 x y := by
    intro x y
    have := dist2_turn s c h1 (fun j => x j - a j) (fun j => y j - a j)
    unfold dist2 at this ⊢
    rw [show x 0 - y 0 = x 0 - a 0 - (y 0 - a 0) by ring, show x 1 - y 1 = x 1 - a 1 - (y 1 - a 1) by ring,
      show x 2 - y 2 = x 2 - a 2 - (y 2 - a 2) by ring, ← this]
    ring
  refine ⟨fun x i => a i + turn s c (fun j => x j - a j) i, turn s c, fun x => (C47_turn θ s c hs hc x a).1, fun v => (C47_turn θ s c hs hc v a).2, hdist, ?_, hRa, ?_, ?_⟩
  · intro x
    have := hdist x a
    rwa [hRa] at this
  · intro v
    have := dist2_turn s c h1 v 0
    rwa [hR] at this
  · intro h0
    have hs0 : ∀ i, s i = 0 := by
      intro i
      have := hs i
      rw [h0] at this
      exact (F.fin.inj (ExactArith.sin_zero.symm.trans this)).symm
    have hc0 : ∀ i, c i = 1 := by
      intro i
      have := hc i
      rw [h0] at this
      exact (F.fin.inj (ExactArith.cos_zero.symm.trans this)).symm
    have ht : ∀ v, turn s c v = v := by
      intro v
      funext i; unfold turn turnX turnY turnZ
      fin_cases i <;> simp [Matrix.cons_val, hs0, hc0]
    refine ⟨fun x => ?_, ht⟩
    funext i
    dsimp only
    rw [ht]; ring

/-- A quarter turn about z through (1, 0, 0) takes the origin to (1, -1, 0). -/
example : rotatePosition (K := ℝ) (fun _ => fin 0) ![fin 0, fin 0, fin (Real.pi / 2)] ![fin 1, fin 0, fin 0] = ![fin 1, fin (-1), fin 0] := by
  have h := (C47_turn (K := ℝ) ![0, 0, Real.pi / 2] ![0, 0, 1] ![1, 1, 0] (by intro i; fin_cases i <;> simp [Arith.sinK])
    (by intro i; fin_cases i <;> simp [Arith.cosK]) (fun _ => 0) ![1, 0, 0]).1
  have e1 : (fun i => fin ((![0, 0, Real.pi / 2] : Fin 3 → ℝ) i)) = ![fin 0, fin 0, fin (Real.pi / 2)] := by funext i; fin_cases i <;> rfl
  have e2 : (fun i => fin ((![1, 0, 0] : Fin 3 → ℝ) i)) = ![fin 1, fin 0, fin 0] := by funext i; fin_cases i <;> rfl
  rw [e1, e2] at h
  rw [h]
  funext i
  unfold turn turnX turnY turnZ
  have h2 : (![1, 1, 0] : Fin 3 → ℝ) 2 = 0 := rfl
  have h3 : (![0, 0, 1] : Fin 3 → ℝ) 2 = 1 := rfl
  have h4 : (![1, 0, 0] : Fin 3 → ℝ) 2 = 0 := rfl
  fin_cases i
  · norm_num [Matrix.cons_val, h2, h3, h4]
  · norm_num [Matrix.cons_val, h2, h3, h4]
  · have e' : ∀ a b c : ℝ, (![a, b, c] : Fin 3 → ℝ) 2 = c := fun _ _ _ => rfl
    simp only [e', Fin.reduceFinMk]
    norm_num [Matrix.cons_val]
    rfl

/-! ### C48 -/

/-- One call on the rotation of a dataset. -/
inductive RotCall (K : Type) where
  | angle (value axis : F K)
  | center (point : Fin 3 → F K)

/-- Running it. -/
def RotCall.run (r : Rotation K) : RotCall K → Run (Rotation K)
  | .angle v a => r.setAngle v a
  | .center x => .ok (r.setCenter x)

/-- The axis is one of 0, 1, 2. -/
def RotCall.Valid : RotCall K → Prop
  | .angle _ a => a = fin 0 ∨ a = fin 1 ∨ a = fin 2
  | .center _ => True

/-- The angle set last for axis `i`, zero if none was. -/
def lastAngle (l : List (RotCall K)) (i : Fin 3) : F K :=
  ((l.filterMap fun | .angle v a => if a = fin ((i : ℕ) : K) then some v else none | .center _ => none).getLast?).getD 0

/-- The anchor set last, the origin if none was. -/
def lastCenter (l : List (RotCall K)) : Fin 3 → F K :=
  ((l.filterMap fun | .angle _ _ => none | .center x => some x).getLast?).getD (fun _ => 0)

theorem toUsize_nat (n : ℕ) (h : n ≤ usizeMax) : F.toUsize (fin (n : K)) = n := by
  change min ⌊(n : K)⌋₊ usizeMax = n
  rw [Nat.floor_natCast]
  omega

theorem lastAngle_snoc (l : List (RotCall K)) (v a : F K) (i : Fin 3) :
    lastAngle (l ++ [.angle v a]) i = if a = fin ((i : ℕ) : K) then v else lastAngle l i := by
  unfold lastAngle
  rw [List.filterMap_append]
  by_cases h : a = fin ((i : ℕ) : K)
  · rw [if_pos h]
    simp [h]
  · rw [if_neg h]
    simp [h]

/-- **C48 for valid calls.** After any sequence of calls with axes 0, 1, 2 on a fresh dataset none has panicked, each stored angle and the
anchor are the last ones set, and the dataset reports a rotation exactly when a stored angle is not zero. -/
theorem C48_history (l : List (RotCall K)) (hl : ∀ c ∈ l, c.Valid) : ∃ r, l.foldlM RotCall.run (Rotation.new : Rotation K) = .ok r ∧
    (∀ i, r.angle i = lastAngle l i) ∧ r.center = lastCenter l ∧ (r.isSet = true ↔ ∃ i, r.angle i ≠ 0) := by
  induction l using List.reverseRecOn with
  | nil => exact ⟨_, rfl, fun i => rfl, rfl, by simp [Rotation.new]⟩
  | append_singleton l c ih =>
    obtain ⟨r, e, h1, h2, h3⟩ := ih (fun c hc => hl c (by simp [hc]))
    have hc := hl c (by simp)
    rw [List.foldlM_append, e]
    cases c with
    | center x =>
      refine ⟨r.setCenter x, rfl, fun i => ?_, ?_, h3⟩
      · rw [show (r.setCenter x).angle i = r.angle i from rfl, h1]
        unfold lastAngle
        simp
      · unfold lastCenter
        simp [Rotation.setCenter]
    | angle v a =>
      obtain ⟨k, ha⟩ : ∃ k : Fin 3, a = fin ((k : ℕ) : K) := by
        rcases hc with h | h | h
        · exact ⟨0, by rw [h]; simp⟩
        · exact ⟨1, by rw [h]; simp⟩
        · exact ⟨2, by rw [h]; simp⟩
      have hk : F.toUsize a = (k : ℕ) := by
        rw [ha]
        exact toUsize_nat _ (by have := k.2; unfold usizeMax; omega)
      have hlt : F.toUsize a < 3 := by rw [hk]; exact k.2
      have hfin : (⟨F.toUsize a, hlt⟩ : Fin 3) = k := Fin.ext hk
      have hset : r.setAngle v a = .ok { r with angle := Function.update r.angle k v, isSet := if (List.finRange 3).all (fun i => F.eqB (Function.update r.angle k v i) 0) then false else true } := by
        unfold Rotation.setAngle
        rw [dif_pos hlt, hfin]
      refine ⟨_, (show _ = r.setAngle v a from ?_).trans hset, fun i => ?_, ?_, ?_⟩
      · change (([RotCall.angle v a] : List (RotCall K)).foldlM RotCall.run r) = _
        rw [List.foldlM_cons]
        change (r.setAngle v a >>= fun s => pure s) = _
        rw [bind_pure]
      · dsimp only
        rw [lastAngle_snoc, Function.update_apply]
        by_cases h : i = k
        · rw [if_pos h, if_pos (by rw [ha, h])]
        · rw [if_neg h, if_neg (by
            rw [ha]
            intro h'
            have := F.fin.inj h'
            rw [Nat.cast_inj] at this
            exact h (Fin.ext this.symm)), h1]
      · rw [h2]
        unfold lastCenter
        simp
      · dsimp only
        have hz : ∀ x : F K, F.eqB x 0 = true ↔ x = 0 := by
          intro x
          change F.eqB x (fin 0) = true ↔ x = fin 0
          cases x <;> simp [F.eqB]
        by_cases hall : (List.finRange 3).all (fun i => F.eqB (Function.update r.angle k v i) 0) = true
        · rw [if_pos hall]
          constructor
          · intro h; cases h
          · rintro ⟨i, hi⟩
            exact (hi ((hz _).1 (List.all_eq_true.1 hall i (List.mem_finRange i)))).elim
        · rw [if_neg hall]
          refine ⟨fun _ => ?_, fun _ => rfl⟩
          by_contra hne
          apply hall
          rw [List.all_eq_true]
          intro i _
          rw [hz]
          by_contra h'
          exact hne ⟨i, h'⟩

/-- Axes from 3 on are rejected, by a panic. -/
theorem C48_reject (r : Rotation K) (v : F K) (x : K) (hx : 3 ≤ x) : r.setAngle v (fin x) = .error .index ∧ r.setAngle v pinf = .error .index := by
  unfold Rotation.setAngle
  constructor
  · rw [dif_neg]
    change ¬ min ⌊x⌋₊ usizeMax < 3
    have : 3 ≤ ⌊x⌋₊ := Nat.le_floor (by exact_mod_cast hx)
    unfold usizeMax
    omega
  · rw [dif_neg]
    change ¬ usizeMax < 3
    unfold usizeMax
    omega

/-- **C48 is false of the code for other axes:** -1, NaN and 1/2 are not rejected, they set the angle about x. -/
theorem C48_false (r : Rotation K) (v a : F K) (ha : a = fin (-1) ∨ a = nan ∨ a = fin (1 / 2)) :
    ∃ r', r.setAngle v a = .ok r' ∧ r'.angle 0 = v := by
  have h0 : F.toUsize a = 0 := by
    rcases ha with rfl | rfl | rfl
    · change min ⌊(-1 : K)⌋₊ usizeMax = 0
      rw [Nat.floor_of_nonpos (by norm_num)]; rfl
    · rfl
    · change min ⌊(1 / 2 : K)⌋₊ usizeMax = 0
      rw [show ⌊(1 / 2 : K)⌋₊ = 0 from Nat.floor_eq_zero.2 (by norm_num)]; rfl
  unfold Rotation.setAngle
  rw [dif_pos (by omega)]
  refine ⟨_, rfl, ?_⟩
  dsimp only
  rw [Function.update_apply, if_pos]
  exact Fin.ext h0.symm

/-- A history with a rotation. -/
example : ∃ r, [RotCall.angle (fin (1 : ℝ)) (fin 2), .center (fun _ => fin 3), .angle (fin 0) (fin 0)].foldlM RotCall.run Rotation.new = .ok r ∧ r.isSet = true := by
  obtain ⟨r, e, h1, _, h3⟩ := C48_history [RotCall.angle (fin (1 : ℝ)) (fin 2), .center (fun _ => fin 3), .angle (fin 0) (fin 0)]
    (by intro c hc; simp only [List.mem_cons, List.not_mem_nil, or_false] at hc; rcases hc with rfl | rfl | rfl <;> simp [RotCall.Valid])
  refine ⟨r, e, h3.2 ⟨2, ?_⟩⟩
  rw [h1]
  unfold lastAngle
  simp
  intro h
  have := F.fin.inj (h : fin (1 : ℝ) = fin 0)
  norm_num at this

end Up4
