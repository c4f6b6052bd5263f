import Verif.Proofs.Cart

set_option linter.unusedSectionVars false

/-! Lemmas about grid contents: accumulation, insertion, lookups. -/

namespace Up4

variable {K : Type} [Field K] [LinearOrder K] [IsStrictOrderedRing K] [FloorRing K] [Arith K]

@[simp] theorem run_bind_ok {α β : Type} (a : α) (f : α → Run β) : (Except.ok a >>= f) = f a := rfl
@[simp] theorem run_bind_error {α β : Type} (e : Panic) (f : α → Run β) :
    ((Except.error e : Run α) >>= f) = .error e := rfl
@[simp] theorem run_pure {α : Type} (a : α) : (pure a : Run α) = .ok a := rfl

namespace Arr
variable {n : ℕ} {α : Type}
theorem read_ok (a : Arr n α) {i : Fin n → ℕ} (h : InB a.shape i) : a.read i = .ok (a.get i) := by
  simp [read, h]
theorem write_ok (a : Arr n α) {i : Fin n → ℕ} (h : InB a.shape i) (v : α) :
    a.write i v = .ok { a with get := Function.update a.get i v } := by
  simp [write, h]
theorem bcShape_self (s : Fin n → ℕ) : bcShape s s = .ok s := by
  simp [bcShape]
theorem bcIdx_self {s i : Fin n → ℕ} (h : InB s i) : bcIdx s i = i := by
  funext a
  have := h a
  simp only [bcIdx]
  split_ifs with h1
  · omega
  · rfl
/-- Elementwise operation on arrays of one shape. -/
theorem zipWith_same (f : α → α → α) (a b : Arr n α) (h : a.shape = b.shape) :
    ∃ r, zipWith f a b = .ok r ∧ r.shape = a.shape ∧ ∀ i, InB a.shape i → r.get i = f (a.get i) (b.get i) := by
  unfold zipWith
  rw [← h, bcShape_self]
  refine ⟨_, rfl, rfl, fun i hi => ?_⟩
  simp only [bcIdx_self hi]
end Arr

namespace Store

/-- `data[c] += v; weight[c] += w` as a pure update. -/
def bump (s : Store K) (c : CellId) (v w : F K) : Store K :=
  ⟨{ s.data with get := Function.update s.data.get c (s.data.get c + v) },
   { s.weight with get := Function.update s.weight.get c (s.weight.get c + w) }⟩

theorem addAt_ok (s : Store K) {c : CellId} (h1 : InB s.data.shape c) (h2 : InB s.weight.shape c)
    (v w : F K) : s.addAt c v w = .ok (s.bump c v w) := by
  unfold addAt
  rw [Arr.read_ok _ h1, run_bind_ok, Arr.write_ok _ h1, run_bind_ok, Arr.read_ok _ h2, run_bind_ok,
    Arr.write_ok _ h2]
  rfl

end Store

namespace Geom

theorem lookup_eq {p : Profile} {g : Geom K} {pos : Pos K} {r : Option CellId}
    (h : g.cellId p pos = .ok r) : g.lookup p pos = r := by
  unfold lookup; rw [h]

theorem LookupOk.cellId_eq {p : Profile} {g : Geom K} {pos : Pos K} (h : g.LookupOk p pos) :
    g.cellId p pos = .ok (g.lookup p pos) := by
  obtain ⟨r, hr, _⟩ := h
  rw [lookup_eq hr, hr]

theorem LookupOk.inB {p : Profile} {g : Geom K} {pos : Pos K} (h : g.LookupOk p pos) {c : CellId}
    (hc : g.lookup p pos = some c) : InB g.cells c := by
  obtain ⟨r, hr, hb⟩ := h
  rw [lookup_eq hr] at hc
  exact hb c hc

theorem cart_lookupOk [LawfulArith K] (p : Profile) (g : CartGeom K) (hc : CellsOk g.cells) (pos : Pos K) :
    (Geom.cart g).LookupOk p pos := by
  refine ⟨_, CartGeom.cellId_eq p g hc pos, fun c h => ?_⟩
  refine CartGeom.cellId_inB p g hc (pos := pos) ?_
  rw [CartGeom.cellId_eq p g hc, h]

theorem cart_lookup_isSome [LawfulArith K] (p : Profile) (g : CartGeom K) (hc : CellsOk g.cells)
    (pos : Pos K) : ((Geom.cart g).lookup p pos).isSome = true ↔ InBox g.limits pos := by
  rw [lookup_eq (g := .cart g) (CartGeom.cellId_eq p g hc pos), ← CartGeom.isInside_iff]
  split_ifs with h <;> simp [h]

end Geom

namespace Grid

/-- The effect of `add_value` once the lookup is known. -/
def bumped (g : Grid K) (r : Option CellId) (v : F K) : Grid K :=
  match r with
  | none => g
  | some c => { g with st := g.st.bump c v 1 }

theorem addValue_eq {p : Profile} {g : Grid K} (hs : g.Shaped) {pos : Pos K} (h : g.geom.LookupOk p pos)
    (v : F K) : g.addValue p pos v = .ok (g.bumped (g.geom.lookup p pos) v) := by
  unfold addValue cellId
  rw [h.cellId_eq, run_bind_ok]
  cases hl : g.geom.lookup p pos with
  | none => rfl
  | some c =>
    have hb := h.inB hl
    have h1 : InB g.st.data.shape c := by rw [hs.1]; exact hb
    have h2 : InB g.st.weight.shape c := by rw [hs.2]; exact hb
    simp only [Store.addAt_ok _ h1 h2]
    obtain ⟨geom, st⟩ := g
    cases geom with
    | cart cg =>
      have h0 := hb 0; have h1 := hb 1; have h2 := hb 2
      simp only [Geom.cells] at h0 h1 h2
      dsimp only
      rw [if_neg (by omega)]
      rfl
    | cyl cg => rfl

theorem bumped_shaped {g : Grid K} (hs : g.Shaped) (r : Option CellId) (v : F K) :
    (g.bumped r v).Shaped := by
  cases r <;> exact hs

theorem bumped_geom (g : Grid K) (r : Option CellId) (v : F K) : (g.bumped r v).geom = g.geom := by
  cases r <;> rfl

theorem addAll_spec {p : Profile} {g : Grid K} (hs : g.Shaped) (l : Adds K)
    (hok : ∀ x ∈ l, g.geom.LookupOk p x.1) :
    ∃ g', g.addAll p l = .ok g' ∧ g'.geom = g.geom ∧ g'.Shaped ∧
      ∀ c, g'.st.data.get c = (hits p g.geom l c).foldl (· + ·) (g.st.data.get c) ∧
        g'.st.weight.get c =
          (List.replicate (hits p g.geom l c).length 1).foldl (· + ·) (g.st.weight.get c) := by
  induction l generalizing g with
  | nil => exact ⟨g, rfl, rfl, hs, fun c => ⟨rfl, rfl⟩⟩
  | cons x l ih =>
    have hx := hok x (by simp)
    have e := addValue_eq hs hx x.2
    have hg := bumped_geom g (g.geom.lookup p x.1) x.2
    obtain ⟨g', h1, h2, h3, h4⟩ := ih (bumped_shaped hs (g.geom.lookup p x.1) x.2)
      (by intro y hy; rw [hg]; exact hok y (by simp [hy]))
    refine ⟨g', ?_, h2.trans hg, h3, fun c => ?_⟩
    · unfold addAll at h1 ⊢
      rw [List.foldlM_cons, e]
      exact h1
    · rw [hg] at h4
      have hc := h4 c
      rw [hc.1, hc.2]
      have hcons : hits p g.geom (x :: l) c =
          if g.geom.lookup p x.1 = some c then x.2 :: hits p g.geom l c else hits p g.geom l c := by
        unfold hits
        by_cases h : g.geom.lookup p x.1 = some c <;> simp [h]
      rw [hcons]
      cases hl : g.geom.lookup p x.1 with
      | none => simp [bumped]
      | some d =>
        by_cases hdc : d = c
        · subst hdc
          simp [bumped, Store.bump, List.replicate_succ]
        · have hcd : c ≠ d := fun h => hdc h.symm
          simp [bumped, Store.bump, hdc, Function.update_of_ne hcd]

end Grid

section lawful
variable [LawfulArith K]

theorem foldl_ones (k m : ℕ) (h : k + m ≤ 2 ^ 53) :
    (List.replicate m (1 : F K)).foldl (· + ·) (F.fin (k : K)) = F.fin ((k + m : ℕ) : K) := by
  induction m generalizing k with
  | zero => simp
  | succ m ih =>
    rw [List.replicate_succ, List.foldl_cons, F.one_def, F.add_fin]
    have : (k : K) + 1 = ((k + 1 : ℕ) : K) := by push_cast; rfl
    rw [this, F.rnd_nat _ (by omega), ← F.one_def, ih (k + 1) (by omega)]
    congr 2; omega

end lawful

section exact
variable [ExactArith K]

theorem foldl_fin (x : K) (l : List K) :
    (l.map F.fin).foldl (· + ·) (F.fin x) = F.fin (x + l.sum) := by
  induction l generalizing x with
  | nil => simp
  | cons a l ih => rw [List.map_cons, List.foldl_cons, F.eadd, ih, List.sum_cons, add_assoc]

theorem foldl_ones_exact (x : K) (m : ℕ) :
    (List.replicate m (1 : F K)).foldl (· + ·) (F.fin x) = F.fin (x + m) := by
  have := foldl_fin x (List.replicate m (1 : K))
  rw [List.map_replicate, List.sum_replicate, nsmul_eq_mul, mul_one] at this
  exact this

end exact

/-- Counting per cell and in total. -/
theorem sum_hits (p : Profile) (g : Geom K) (l : Adds K) (hok : ∀ x ∈ l, g.LookupOk p x.1) :
    ∑ c ∈ cellsOf g.cells, (hits p g l c).length = (l.filter fun x => (g.lookup p x.1).isSome).length := by
  induction l with
  | nil => simp [hits]
  | cons x l ih =>
    have ih := ih (fun y hy => hok y (by simp [hy]))
    have hx := hok x (by simp)
    have hcons : ∀ c, (hits p g (x :: l) c).length =
        (if g.lookup p x.1 = some c then 1 else 0) + (hits p g l c).length := by
      intro c
      unfold hits
      by_cases h : g.lookup p x.1 = some c <;> simp [h, Nat.add_comm]
    simp only [hcons, Finset.sum_add_distrib, ih]
    cases hl : g.lookup p x.1 with
    | none => simp [hl]
    | some d =>
      have hd := hx.inB hl
      simp only [Option.some.injEq, List.filter_cons, hl, Option.isSome_some, if_true, List.length_cons]
      rw [Finset.sum_ite_eq (cellsOf g.cells) d (fun _ => 1), if_pos ((mem_cellsOf _ _).2 hd)]
      omega

end Up4
