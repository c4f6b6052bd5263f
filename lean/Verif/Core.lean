import Verif.Float
import Mathlib.Data.Fin.Tuple.Basic
import Mathlib.Data.Fintype.Pi
import Mathlib.Data.Fintype.BigOperators
import Mathlib.Algebra.BigOperators.Group.Finset.Basic
import Mathlib.Algebra.BigOperators.Fin
import Mathlib.Data.List.Basic
import Mathlib.Data.Fin.VecNotation
import Mathlib.Tactic.FinCases
import Mathlib.Tactic.IntervalCases

set_option linter.unusedSectionVars false

/-!
# Shared vocabulary of the model

Panics, build profiles, `usize` arithmetic, and `ndarray` arrays.
-/

namespace Up4

/-- The ways a Rust function of the library can panic. -/
inductive Panic where
  /-- index out of bounds (`ndarray` or slice indexing) -/
  | index
  /-- `usize` arithmetic overflow in a build with overflow checks -/
  | overflow
  /-- `panic!`, `unimplemented!` -/
  | explicit
  /-- `unwrap`/`expect` on `None`/`Err` -/
  | unwrap
  /-- incompatible array shapes in `ndarray` arithmetic -/
  | shape
deriving DecidableEq, Repr

/-- Result of a call that may panic. -/
abbrev Run (α : Type) := Except Panic α

/-- A Cargo profile: overflow checks are on in `debug` and off in `release`. -/
inductive Profile where
  | debug
  | release
deriving DecidableEq, Repr

/-- `usize` modulus on 64-bit targets. -/
def usizeMod : ℕ := 2 ^ 64

/-- `a - b` on `usize`: checked in `debug`, wrapping in `release`. -/
def usub : Profile → ℕ → ℕ → Run ℕ
  | .debug, a, b => if b ≤ a then .ok (a - b) else .error .overflow
  | .release, a, b => .ok ((a + usizeMod - b) % usizeMod)

theorem usub_of_le (p : Profile) {a b : ℕ} (h : b ≤ a) (ha : a < usizeMod) :
    usub p a b = .ok (a - b) := by
  cases p with
  | debug => simp [usub, h]
  | release =>
    simp only [usub]
    congr 1
    have : a + usizeMod - b = (a - b) + usizeMod := by omega
    rw [this, Nat.add_mod_right, Nat.mod_eq_of_lt (by omega)]

/-- `a + b` on `usize`: checked in `debug`, wrapping in `release`. -/
def uadd : Profile → ℕ → ℕ → Run ℕ
  | .debug, a, b => if a + b < usizeMod then .ok (a + b) else .error .overflow
  | .release, a, b => .ok ((a + b) % usizeMod)

theorem uadd_of_lt (p : Profile) {a b : ℕ} (h : a + b < usizeMod) : uadd p a b = .ok (a + b) := by
  cases p with
  | debug => simp [uadd, h]
  | release => simp only [uadd]; rw [Nat.mod_eq_of_lt h]

/-! ### ndarray arrays -/

/-- An `ndarray` array of dimension `n`: a shape and a value for every index vector.
Only in-bounds entries are observable. -/
structure Arr (n : ℕ) (α : Type) where
  shape : Fin n → ℕ
  get : (Fin n → ℕ) → α

/-- The index vector lies inside the shape. -/
def InB {n : ℕ} (s idx : Fin n → ℕ) : Prop := ∀ i, idx i < s i

instance {n : ℕ} (s idx : Fin n → ℕ) : Decidable (InB s idx) := inferInstanceAs (Decidable (∀ _, _))

namespace Arr
variable {n : ℕ} {α β : Type}

/-- `Array::from_elem`/`Array::zeros`. -/
def const (s : Fin n → ℕ) (v : α) : Arr n α := ⟨s, fun _ => v⟩

/-- `a[idx]` with ndarray's bounds check. -/
def read (a : Arr n α) (idx : Fin n → ℕ) : Run α :=
  if InB a.shape idx then .ok (a.get idx) else .error .index

/-- `a[idx] = v` with ndarray's bounds check. -/
def write (a : Arr n α) (idx : Fin n → ℕ) (v : α) : Run (Arr n α) :=
  if InB a.shape idx then .ok { a with get := Function.update a.get idx v } else .error .index

/-- `a.mapv(f)`. -/
def map (f : α → β) (a : Arr n α) : Arr n β := ⟨a.shape, fun i => f (a.get i)⟩

/-- Observable equality: same shape and same in-bounds entries. -/
def Eqv (a b : Arr n α) : Prop := a.shape = b.shape ∧ ∀ i, InB a.shape i → a.get i = b.get i

theorem Eqv.refl (a : Arr n α) : a.Eqv a := ⟨rfl, fun _ _ => rfl⟩

/-- ndarray's co-broadcast of two shapes of equal dimension. -/
def bcShape (s t : Fin n → ℕ) : Run (Fin n → ℕ) :=
  if ∀ i, s i = t i ∨ s i = 1 ∨ t i = 1 then .ok (fun i => if s i = 1 then t i else s i)
  else .error .shape

/-- Index into a broadcast operand: a length-one axis is repeated. -/
def bcIdx (s idx : Fin n → ℕ) : Fin n → ℕ := fun i => if s i = 1 then 0 else idx i

/-- `&a op &b` of ndarray with co-broadcasting (panics on incompatible shapes). -/
def zipWith (f : α → α → α) (a b : Arr n α) : Run (Arr n α) :=
  match bcShape a.shape b.shape with
  | .error e => .error e
  | .ok s => .ok ⟨s, fun i => f (a.get (bcIdx a.shape i)) (b.get (bcIdx b.shape i))⟩

end Arr

/-- All index vectors of a shape in row-major (logical iteration) order. -/
def indices : (n : ℕ) → (Fin n → ℕ) → List (Fin n → ℕ)
  | 0, _ => [Fin.elim0]
  | n + 1, s => (List.range (s 0)).flatMap fun k => (indices n (Fin.tail s)).map (Fin.cons k)

theorem mem_indices {n : ℕ} (s idx : Fin n → ℕ) : idx ∈ indices n s ↔ InB s idx := by
  induction n with
  | zero =>
    simp only [indices, List.mem_singleton, InB, IsEmpty.forall_iff, iff_true]
    funext i; exact i.elim0
  | succ n ih =>
    simp only [indices, List.mem_flatMap, List.mem_range, List.mem_map]
    constructor
    · rintro ⟨k, hk, t, ht, rfl⟩
      intro i
      refine Fin.cases ?_ (fun j => ?_) i
      · simpa using hk
      · simpa [Fin.tail] using (ih _ _).1 ht j
    · intro h
      refine ⟨idx 0, h 0, Fin.tail idx, (ih _ _).2 (fun j => h j.succ), Fin.cons_self_tail idx⟩

theorem nodup_indices {n : ℕ} (s : Fin n → ℕ) : (indices n s).Nodup := by
  induction n with
  | zero => simp [indices]
  | succ n ih =>
    simp only [indices]
    rw [List.nodup_flatMap]
    constructor
    · intro k _
      exact (ih _).map (Fin.cons_right_injective (α := fun _ => ℕ) k)
    · refine List.Pairwise.imp (R := (· ≠ ·)) ?_ List.nodup_range
      intro a b hab
      simp only [Function.onFun]
      intro x hx hy
      simp only [List.mem_map] at hx hy
      obtain ⟨t, _, rfl⟩ := hx
      obtain ⟨u, _, h⟩ := hy
      have := congrFun h 0
      simp at this
      exact hab this.symm

/-- The finite set of all cells of a shape. -/
def cellsOf {n : ℕ} (s : Fin n → ℕ) : Finset (Fin n → ℕ) :=
  Fintype.piFinset fun i => Finset.range (s i)

theorem mem_cellsOf {n : ℕ} (s idx : Fin n → ℕ) : idx ∈ cellsOf s ↔ InB s idx := by
  simp [cellsOf, InB]

theorem toFinset_indices {n : ℕ} (s : Fin n → ℕ) : (indices n s).toFinset = cellsOf s := by
  ext; simp [mem_indices, mem_cellsOf]

theorem sum_indices {n : ℕ} {M : Type} [AddCommMonoid M] (s : Fin n → ℕ) (f : (Fin n → ℕ) → M) :
    ((indices n s).map f).sum = ∑ c ∈ cellsOf s, f c := by
  rw [← toFinset_indices, List.sum_toFinset _ (nodup_indices s)]

theorem length_indices {n : ℕ} (s : Fin n → ℕ) : (indices n s).length = ∏ i, s i := by
  have := List.toFinset_card_of_nodup (nodup_indices s)
  rw [toFinset_indices] at this
  rw [← this]; simp [cellsOf]

namespace F
variable {K : Type} [Field K] [LinearOrder K] [Arith K]

/-- `iter().sum()`: left fold from `0.`. -/
def sum (l : List (F K)) : F K := l.foldl (· + ·) 0

end F

end Up4
