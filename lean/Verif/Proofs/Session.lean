import Verif.Model.Session
import Verif.Proofs.Ahead
import Verif.Proofs.Slots

set_option linter.unusedSectionVars false

/-! The state of a data manager between calls: what earlier calls can leave behind, and that it does not show. -/

namespace Up4
open F
open Selector (at')

variable {K : Type} [Field K] [LinearOrder K] [IsStrictOrderedRing K] [FloorRing K] [Arith K]

/-- The buffer holding the first timesteps of the file, as after opening. -/
def firstBuf {T : Type} (dflt : T) (file : ℕ → T) (n : ℕ) : Buf T :=
  ⟨fun i => if i < min BUFFERSIZE n then file i else dflt, 0, min BUFFERSIZE n, min BUFFERSIZE n⟩

/-- A buffer whose entries behind the data that fit have never been written. -/
def Buf.Padded {T : Type} (dflt : T) (n : ℕ) (b : Buf T) : Prop := ∀ i, min BUFFERSIZE n ≤ i → b.data i = dflt

/-- What every call keeps. -/
structure Dm.Steady {T : Type} (dflt : T) (kind : Kind) (file : ℕ → T) (n : ℕ) (d : Dm T) : Prop where
  kindEq : d.kind = kind
  fileEq : d.file = file
  num : d.n = n
  small : n ≤ 2 ^ 50
  good : d.main.Good file n
  pad : d.main.Padded dflt n
  first : d.main.lo = 0 → d.main = firstBuf dflt file n
  extra : (d.names = [] ∧ d.extra = []) ∨ (d.names = [0] ∧ ∃ b, d.extra = [b] ∧ b.Padded dflt n)

section
variable {T : Type} {dflt : T} {kind : Kind} {file : ℕ → T} {n : ℕ}

theorem Dm.Steady.inv {d : Dm T} (h : d.Steady dflt kind file n) : d.Inv := by
  refine ⟨by rw [h.fileEq, h.num]; exact h.good, ?_, by rw [h.num]; exact h.small⟩
  rcases h.extra with ⟨e1, e2⟩ | ⟨e1, b, e2, _⟩ <;> rw [e1, e2] <;> rfl

theorem Buf.load_padded (p : Profile) {b b' : Buf T} {lo hi : ℕ} (h : b.Padded dflt n) (e : b.load p kind file n lo hi = .ok b') :
    b'.Padded dflt n ∧ b'.lo = lo := by
  unfold Buf.load at e
  dsimp only at e
  have em : (if hi ≥ n then n else hi) = min hi n := by split_ifs <;> omega
  rw [em] at e
  by_cases h1 : lo ≤ min hi n
  · rw [if_pos h1] at e
    by_cases h2 : min hi n - lo ≤ BUFFERSIZE
    · rw [if_pos h2] at e
      cases e
      refine ⟨fun i hi' => ?_, rfl⟩
      change (if i < min hi n - lo then file (lo + i) else b.data i) = dflt
      rw [if_neg (by omega), h i hi']
    · rw [if_neg h2] at e; cases e
  · rw [if_neg h1] at e
    cases p <;> cases kind <;> dsimp only at e <;> first | (cases e; done) | (cases e; exact ⟨h, rfl⟩)

theorem Buf.load_first (p : Profile) (b : Buf T) (h : b.Padded dflt n) : b.load p kind file n 0 BUFFERSIZE = .ok (firstBuf dflt file n) := by
  unfold Buf.load
  dsimp only
  have em : (if BUFFERSIZE ≥ n then n else BUFFERSIZE) = min BUFFERSIZE n := by split_ifs <;> omega
  rw [em, if_pos (Nat.zero_le _), if_pos (by omega)]
  unfold firstBuf
  congr 2
  funext i
  rw [Nat.zero_add, Nat.sub_zero]
  split_ifs with hi
  · rfl
  · exact h i (by omega)

/-- Reading a timestep of the file: the stored one, whatever happened before; after reading timestep 0 the buffer is as after opening. -/
theorem Dm.get_steady [LawfulArith K] (p : Profile) (d : Dm T) (h : d.Steady dflt kind file n) (t : ℕ) (ht : t < n) :
    ∃ b, d.get K p t = .ok ({ d with main := b }, file t) ∧ ({ d with main := b } : Dm T).Steady dflt kind file n ∧
      (t = 0 → b = firstBuf dflt file n) := by
  obtain ⟨b, e, hb, _⟩ := Dm.get_ok (K := K) p d h.inv t (by rw [h.num]; exact ht)
  have e : d.get K p t = .ok ({ d with main := b }, file t) := by rw [e, h.fileEq]
  rw [h.fileEq, h.num] at hb
  have hg := h.good
  have hlast : usub p d.main.hi 1 = .ok (d.main.hi - 1) := usub_ok p (by have := hg.1; omega) (by have := hg.2.1; have := h.small; omega)
  -- what the reload did
  have hr : d.refresh K p t (d.main.hi - 1) = .ok b := by
    unfold Dm.get at e
    rw [hlast, run_bind_ok] at e
    obtain ⟨b', e1, e2⟩ := run_bind_inv e
    obtain ⟨i, e3, e4⟩ := run_bind_inv e2
    obtain ⟨x, e5, e6⟩ := run_bind_inv e4
    have : ({ d with main := b' } : Dm T) = { d with main := b } := (Prod.mk.inj (Except.ok.inj e6)).1
    rw [e1, (Dm.mk.inj this).2.2.2.1]
  have key : b.Padded dflt n ∧ (b.lo = 0 → b = firstBuf dflt file n) ∧ (t = 0 → b.lo = 0) := by
    unfold Dm.refresh at hr
    rw [h.kindEq, h.fileEq, h.num] at hr
    by_cases ha : t > d.main.hi - 1
    · rw [if_pos ha] at hr
      obtain ⟨x, e1, e2⟩ := run_bind_inv hr
      obtain ⟨q1, q2⟩ := Buf.load_padded p h.pad e2
      refine ⟨q1, ?_, ?_⟩
      · intro h0; omega
      · intro h0; have := hg.1; omega
    · rw [if_neg ha] at hr
      by_cases hc : t < d.main.lo
      · rw [if_pos hc] at hr
        obtain ⟨q1, q2⟩ := Buf.load_padded p h.pad hr
        rw [chunk_eq t (by have := h.small; omega)] at hr q2
        have hz : b.lo = 0 → b = firstBuf dflt file n := by
          intro h0
          have hq : t / BUFFERSIZE = 0 := by
            rw [h0] at q2
            rcases Nat.mul_eq_zero.1 q2.symm with h | h
            · exact h
            · norm_num [BUFFERSIZE] at h
          rw [hq, Nat.zero_mul, Nat.zero_add, Nat.one_mul, Buf.load_first p _ h.pad] at hr
          exact (Except.ok.inj hr).symm
        refine ⟨q1, hz, ?_⟩
        rintro rfl
        rw [q2, Nat.zero_div, Nat.zero_mul]
      · rw [if_neg hc] at hr
        cases hr
        exact ⟨h.pad, h.first, fun h0 => by omega⟩
  exact ⟨b, e, ⟨h.kindEq, h.fileEq, h.num, h.small, hb, key.1, key.2.1, h.extra⟩, fun h0 => key.2.1 (key.2.2 h0)⟩

/-- Setting up the look-ahead buffer leaves the same buffer whatever was in it. -/
theorem Dm.setup_steady (p : Profile) (d : Dm T) (h : d.Steady dflt kind file n) :
    d.setup p dflt 0 = .ok { d with extra := [firstBuf dflt file n], names := [0] } := by
  unfold Dm.setup
  rw [h.kindEq, h.fileEq, h.num]
  rcases h.extra with ⟨e1, e2⟩ | ⟨e1, b, e2, hb⟩
  · rw [e1, e2, if_neg (by simp), Buf.load_first p ⟨fun _ => dflt, 0, BUFFERSIZE, BUFFERSIZE⟩ (fun _ _ => rfl), run_bind_ok]
    rfl
  · rw [e1, e2, if_pos (by simp)]
    dsimp only
    rw [show List.findIdx (fun x => x == 0) [0] = 0 from rfl]
    change (Buf.load p kind file n { b with lo := 0, hi := BUFFERSIZE } 0 BUFFERSIZE >>= _) = _
    rw [Buf.load_first p { b with lo := 0, hi := BUFFERSIZE } hb, run_bind_ok]
    rfl

theorem Dm.setup_steady' {d : Dm T} (h : d.Steady dflt kind file n) :
    ({ d with extra := [firstBuf dflt file n], names := [0] } : Dm T).Steady dflt kind file n :=
  ⟨h.kindEq, h.fileEq, h.num, h.small, h.good, h.pad, h.first, Or.inr ⟨rfl, _, rfl, fun i hi => by
    change (if i < min BUFFERSIZE n then file i else dflt) = dflt
    rw [if_neg (by omega)]⟩⟩

/-- Reading through the look-ahead buffer keeps the state, whatever is read. -/
theorem Dm.getBuf_steady (p : Profile) {d d' : Dm T} (h : d.Steady dflt kind file n) {t : ℕ} {x : T} (e : d.getBuf p t 0 = .ok (d', x)) :
    d'.Steady dflt kind file n := by
  rcases h.extra with ⟨_, e2⟩ | ⟨e1, b, e2, hb⟩
  · unfold Dm.getBuf at e; rw [e2] at e; cases e
  · unfold Dm.getBuf at e
    rw [e2] at e
    dsimp only [List.getElem?_cons_zero] at e
    obtain ⟨last, _, e3⟩ := run_bind_inv e
    obtain ⟨b1, s1, e4⟩ := run_bind_inv e3
    obtain ⟨b2, s2, e5⟩ := run_bind_inv e4
    obtain ⟨i, _, e6⟩ := run_bind_inv e5
    obtain ⟨y, _, e7⟩ := run_bind_inv e6
    have hd' : d' = { d with extra := d.extra.set 0 b2 } := by
      rw [← e2] at e7
      exact ((Prod.mk.inj (Except.ok.inj e7)).1).symm
    have p1 : b1.Padded dflt n := by
      unfold Dm.bufStep1 at s1
      rw [h.kindEq, h.fileEq, h.num] at s1
      split_ifs at s1
      · obtain ⟨_, _, s1⟩ := run_bind_inv s1
        exact (Buf.load_padded p hb s1).1
      · exact (Buf.load_padded p hb s1).1
      · cases s1; exact hb
    have p2 : b2.Padded dflt n := by
      unfold Dm.bufStep2 at s2
      rw [h.fileEq, h.num] at s2
      split_ifs at s2
      · obtain ⟨_, _, s2⟩ := run_bind_inv s2
        exact (Buf.load_padded p p1 s2).1
      · cases s2; exact p1
    rw [hd']
    refine ⟨h.kindEq, h.fileEq, h.num, h.small, h.good, h.pad, h.first, Or.inr ⟨e1, b2, ?_, p2⟩⟩
    change d.extra.set 0 b2 = [b2]
    rw [e2]; rfl

/-- The two computations give the same value or the same panic, and leave a usable manager. -/
def Agree {α : Type} (dflt : T) (kind : Kind) (file : ℕ → T) (n : ℕ) (x y : Run (Dm T × α)) : Prop :=
  (∃ e, x = .error e ∧ y = .error e) ∨
  (∃ d d' a, x = .ok (d, a) ∧ y = .ok (d', a) ∧ d.Steady dflt kind file n ∧ d'.Steady dflt kind file n)

variable {α β γ : Type}

theorem Agree.value {d d' : Dm T} (h : d.Steady dflt kind file n) (h' : d'.Steady dflt kind file n) (a : α) :
    Agree dflt kind file n (pure (d, a) : Run _) (pure (d', a)) := Or.inr ⟨d, d', a, rfl, rfl, h, h'⟩

theorem Agree.run (X : Run γ) {F G : γ → Run (Dm T × α)} (h : ∀ c, X = .ok c → Agree dflt kind file n (F c) (G c)) :
    Agree dflt kind file n (X >>= F) (X >>= G) := by
  cases X with
  | error e => exact Or.inl ⟨e, rfl, rfl⟩
  | ok c => exact h c rfl

theorem Agree.bind {x y : Run (Dm T × α)} {F : Dm T × α → Run (Dm T × β)} (h : Agree dflt kind file n x y)
    (hF : ∀ d d' a, d.Steady dflt kind file n → d'.Steady dflt kind file n → Agree dflt kind file n (F (d, a)) (F (d', a))) :
    Agree dflt kind file n (x >>= F) (y >>= F) := by
  rcases h with ⟨e, rfl, rfl⟩ | ⟨d, d', a, rfl, rfl, h1, h2⟩
  · exact Or.inl ⟨e, rfl, rfl⟩
  · exact hF d d' a h1 h2

theorem Agree.fold {ι : Type} (l : List ι) (F : Dm T × α → ι → Run (Dm T × α))
    (hF : ∀ t ∈ l, ∀ d d' a, d.Steady dflt kind file n → d'.Steady dflt kind file n → Agree dflt kind file n (F (d, a) t) (F (d', a) t))
    {d d' : Dm T} (h : d.Steady dflt kind file n) (h' : d'.Steady dflt kind file n) (a : α) :
    Agree dflt kind file n (l.foldlM F (d, a)) (l.foldlM F (d', a)) := by
  induction l generalizing d d' a with
  | nil => exact Agree.value h h' a
  | cons t l ih =>
    rw [List.foldlM_cons, List.foldlM_cons]
    exact (hF t (by simp) d d' a h h').bind fun d1 d2 b h1 h2 => ih (fun t ht => hF t (by simp [ht])) h1 h2 b

/-- Reading a timestep agrees. -/
theorem Agree.get [LawfulArith K] (p : Profile) {d d' : Dm T} (h : d.Steady dflt kind file n) (h' : d'.Steady dflt kind file n)
    {t : ℕ} (ht : t < n) {F : Dm T × T → Run (Dm T × β)}
    (hF : ∀ d d', d.Steady dflt kind file n → d'.Steady dflt kind file n → Agree dflt kind file n (F (d, file t)) (F (d', file t))) :
    Agree dflt kind file n (d.get K p t >>= F) (d'.get K p t >>= F) := by
  obtain ⟨b, e, hb, _⟩ := Dm.get_steady (K := K) p d h t ht
  obtain ⟨b', e', hb', _⟩ := Dm.get_steady (K := K) p d' h' t ht
  rw [e, e', run_bind_ok, run_bind_ok]
  exact hF _ _ hb hb'

/-- A loop over `0, 1, …` that reads its timestep first, after setting up the look-ahead buffer: after the first read the managers are equal. -/
theorem Agree.look [LawfulArith K] (p : Profile) (k : α → ℕ → Dm T × T → Run (Dm T × α))
    (hk : ∀ a t r r', r.1.Steady dflt kind file n → k a t r = .ok r' → r'.1.Steady dflt kind file n)
    (m : ℕ) (hm : m ≤ n) {d d' : Dm T} (h : d.Steady dflt kind file n) (h' : d'.Steady dflt kind file n)
    (hx : d.extra = [firstBuf dflt file n] ∧ d.names = [0]) (hx' : d'.extra = [firstBuf dflt file n] ∧ d'.names = [0]) (a : α) :
    Agree dflt kind file n ((List.range m).foldlM (fun (ds : Dm T × α) t => ds.1.get K p t >>= k ds.2 t) (d, a))
      ((List.range m).foldlM (fun (ds : Dm T × α) t => ds.1.get K p t >>= k ds.2 t) (d', a)) := by
  cases m with
  | zero => exact Agree.value h h' a
  | succ m =>
    obtain ⟨b, e, hb, hb0⟩ := Dm.get_steady (K := K) p d h 0 (by omega)
    obtain ⟨b', e', hb', hb0'⟩ := Dm.get_steady (K := K) p d' h' 0 (by omega)
    have heq : ({ d with main := b } : Dm T) = { d' with main := b' } := by
      rw [hb0 rfl, hb0' rfl]
      rcases d with ⟨d1, d2, d3, d4, d5, d6⟩
      rcases d' with ⟨d1', d2', d3', d4', d5', d6'⟩
      have a1 : d1 = kind := h.kindEq
      have a2 : d2 = file := h.fileEq
      have a3 : d3 = n := h.num
      have b1 : d1' = kind := h'.kindEq
      have b2 : d2' = file := h'.fileEq
      have b3 : d3' = n := h'.num
      obtain ⟨c1, c2⟩ := hx
      obtain ⟨c1', c2'⟩ := hx'
      dsimp only at c1 c2 c1' c2' ⊢
      rw [a1, a2, a3, b1, b2, b3, c1, c2, c1', c2']
    rw [List.range_succ_eq_map, List.foldlM_cons, List.foldlM_cons]
    dsimp only
    rw [e, e', run_bind_ok, run_bind_ok, heq]
    -- equal computations: only the invariant is left
    cases hr : (k a 0 ({ d' with main := b' }, file 0) >>= fun s => (List.map Nat.succ (List.range m)).foldlM
        (fun (ds : Dm T × α) t => ds.1.get K p t >>= k ds.2 t) s) with
    | error er => exact Or.inl ⟨er, rfl, rfl⟩
    | ok r =>
      obtain ⟨r1, e1, e2⟩ := run_bind_inv hr
      have h1 := hk a 0 _ r1 hb' e1
      have h2 : r.1.Steady dflt kind file n := by
        refine foldlM_invariant _ _ (fun s : Dm T × α => s.1.Steady dflt kind file n) ?_ h1 e2
        intro s t s' ht hs hst
        have htn : t < n := by
          obtain ⟨u, hu, rfl⟩ := List.mem_map.1 ht
          have := List.mem_range.1 hu; omega
        obtain ⟨b3, e3, hb3, _⟩ := Dm.get_steady (K := K) p s.1 hs t htn
        rw [e3, run_bind_ok] at hst
        exact hk s.2 t _ s' hb3 hst
      exact Or.inr ⟨r.1, r.1, r.2, rfl, rfl, h2, h2⟩

end

/-! ### The analyses -/

section
variable [LawfulArith K] {kind : Kind} {file : ℕ → Timestep K} {n : ℕ} {d d' : Dm (Timestep K)}

local notation "OK" => Dm.Steady (Timestep.default : Timestep K) kind file n
local notation "AG" => Agree (Timestep.default : Timestep K) kind file n

theorem Agree.forSteps {σ : Type} (p : Profile) (l : List ℕ) (hl : ∀ t ∈ l, t < n) (body : σ → ℕ → Timestep K → Run σ)
    (h : OK d) (h' : OK d') (s : σ) : AG (d.forSteps p l body s) (d'.forSteps p l body s) := by
  unfold Dm.forSteps
  refine Agree.fold _ _ (fun t ht d d' a h h' => ?_) h h' s
  refine Agree.get p h h' (hl t ht) fun d d' h h' => ?_
  exact Agree.run _ fun c _ => Agree.value h h' c

theorem Agree.allSteps {α : Type} (p : Profile) (h : OK d) (h' : OK d') {F G : List ℕ → Run (Dm (Timestep K) × α)}
    (hF : AG (F (List.range n)) (G (List.range n))) : AG (d.allSteps p >>= F) (d'.allSteps p >>= G) := by
  rw [allSteps_eq p d h.inv, allSteps_eq p d' h'.inv, h.num, h'.num]
  exact hF

theorem Agree.stepsBut {α : Type} (p : Profile) {k : ℕ} (hk : k ≤ n) (h : OK d) (h' : OK d') {F G : List ℕ → Run (Dm (Timestep K) × α)}
    (hF : AG (F (List.range (n - k))) (G (List.range (n - k)))) : AG (d.stepsBut p k >>= F) (d'.stepsBut p k >>= G) := by
  rw [stepsBut_eq p d h.inv (by rw [h.num]; exact hk), stepsBut_eq p d' h'.inv (by rw [h'.num]; exact hk), h.num, h'.num]
  exact hF

theorem Agree.setup {α : Type} (p : Profile) (h : OK d) (h' : OK d') {F : Dm (Timestep K) → Run (Dm (Timestep K) × α)}
    (hF : ∀ d d', OK d → OK d' → (d.extra = [firstBuf Timestep.default file n] ∧ d.names = [0]) →
      (d'.extra = [firstBuf Timestep.default file n] ∧ d'.names = [0]) → AG (F d) (F d')) :
    AG (d.setup p Timestep.default 0 >>= F) (d'.setup p Timestep.default 0 >>= F) := by
  rw [Dm.setup_steady p d h, Dm.setup_steady p d' h', run_bind_ok, run_bind_ok]
  exact hF _ _ (Dm.setup_steady' h) (Dm.setup_steady' h') ⟨rfl, rfl⟩ ⟨rfl, rfl⟩

theorem range_lt {m : ℕ} (hm : m ≤ n) : ∀ t ∈ List.range m, t < n := fun t ht => by have := List.mem_range.1 ht; omega

theorem numberfield_agree (p : Profile) (g : Grid K) (sel : Selector K) (h : OK d) (h' : OK d') :
    AG (numberfield p d g sel) (numberfield p d' g sel) := by
  unfold numberfield
  exact Agree.allSteps p h h' (Agree.forSteps p _ (range_lt le_rfl) _ h h' _)

theorem velocityfield_agree (p : Profile) (g : Grid K) (sel : Selector K) (mode : String) (lo hi : F K) (h : OK d) (h' : OK d') :
    AG (velocityfield p d g sel mode lo hi) (velocityfield p d' g sel mode lo hi) := by
  unfold velocityfield
  refine Agree.run _ fun v _ => Agree.allSteps p h h' ?_
  refine (Agree.forSteps p _ (range_lt le_rfl) _ h h' _).bind fun d d' a h h' => ?_
  exact Agree.run _ fun c _ => Agree.value h h' c

theorem vectorfield_agree (p : Profile) (g : Grid K) (sel : Selector K) (h : OK d) (h' : OK d') :
    AG (vectorfield p d g sel) (vectorfield p d' g sel) := by
  unfold vectorfield
  refine Agree.allSteps p h h' ?_
  refine (Agree.forSteps p _ (range_lt le_rfl) _ h h' _).bind fun d d' a h h' => ?_
  exact Agree.run _ fun c _ => Agree.value h h' c

theorem histogram_agree (p : Profile) (st : Stats K) (g : Grid K) (sel : Selector K) (property : String) (limit : F K) (bins : ℕ)
    (h : OK d) (h' : OK d') : AG (histogram p d st g sel property limit bins) (histogram p d' st g sel property limit bins) := by
  unfold histogram
  split_ifs
  · refine Agree.allSteps p h h' ?_
    exact (Agree.forSteps p _ (range_lt le_rfl) _ h h' _).bind fun d d' a h h' => Agree.value h h' _
  · exact Or.inl ⟨_, rfl, rfl⟩

theorem granular_agree (p : Profile) (g : Grid K) (sel : Selector K) (mode : String) (h : OK d) (h' : OK d') :
    AG (granularTemperature p d g sel mode) (granularTemperature p d' g sel mode) := by
  unfold granularTemperature
  refine Agree.allSteps p h h' ?_
  refine (Agree.forSteps p _ (range_lt le_rfl) _ h h' _).bind fun d d' a h h' => ?_
  refine Agree.run _ fun _ _ => Agree.run _ fun _ _ => Agree.run _ fun _ _ => Agree.run _ fun _ _ => Agree.run _ fun _ _ =>
    Agree.run _ fun _ _ => Agree.run _ fun _ _ => Agree.value h h' _

theorem lacey_agree (p : Profile) (g : Grid K) (sel : Selector K) (a b threshold : ℕ) (hn : 1 ≤ n) (h : OK d) (h' : OK d') :
    AG (laceyMixing p d g sel a b threshold) (laceyMixing p d' g sel a b threshold) := by
  unfold laceyMixing
  exact Agree.stepsBut p hn h h' (Agree.forSteps p _ (range_lt (by omega)) _ h h' _)

theorem concentration_agree (p : Profile) (g : Grid K) (sel : Selector K) (a b : ℕ) (hn : 1 ≤ n) (h : OK d) (h' : OK d') :
    AG (concentrationField p d g sel a b) (concentrationField p d' g sel a b) := by
  unfold concentrationField
  refine Agree.stepsBut p hn h h' ?_
  refine (Agree.forSteps p _ (range_lt (by omega)) _ h h' _).bind fun d d' a h h' => ?_
  refine Agree.run _ fun _ _ => Agree.run _ fun _ _ => Agree.run _ fun _ _ => Agree.run _ fun _ _ => Agree.run _ fun _ _ => Agree.value h h' _

theorem extract_agree (p : Profile) (i a b : ℕ) (h : OK d) (h' : OK d') : AG (extract p d i a b) (extract p d' i a b) := by
  unfold extract
  rw [h.num, h'.num]
  split_ifs with h1 h2
  · exact Or.inl ⟨_, rfl, rfl⟩
  · exact Or.inl ⟨_, rfl, rfl⟩
  · refine Agree.forSteps p _ (fun t ht => ?_) _ h h' _
    rw [List.mem_range'_1] at ht
    omega

theorem circLoop_agree {σ : Type} (p : Profile) (sel : Selector K) (body : Timestep K → σ → Timestep K → ℕ → Run σ) (l : List ℕ)
    (hl : ∀ t ∈ l, t < n) (old : Timestep K) (s : σ) (h : OK d) (h' : OK d') :
    AG (circLoop p sel body l d old s) (circLoop p sel body l d' old s) := by
  unfold circLoop
  refine Agree.fold _ _ (fun t ht d d' a h h' => ?_) h h' (old, s)
  refine Agree.get p h h' (hl t ht) fun d d' h h' => ?_
  dsimp only
  split_ifs
  · exact Agree.run _ fun c _ => Agree.value h h' _
  · exact Agree.value h h' _

theorem innerSteps_agree {α : Type} (p : Profile) (hn : 1 ≤ n) (h : OK d) (h' : OK d') {F G : List ℕ → Run (Dm (Timestep K) × α)}
    (hF : ∀ l : List ℕ, (∀ t ∈ l, t < n) → AG (F l) (G l)) : AG (d.innerSteps p >>= F) (d'.innerSteps p >>= G) := by
  rw [innerSteps_eq p d h.inv, innerSteps_eq p d' h'.inv, h.num, h'.num]
  refine hF _ fun t ht => ?_
  rw [List.mem_range'_1] at ht; omega

theorem circulation_agree (p : Profile) (st : Stats K) (sel : Selector K) (axis : Fin 3) (bound : F K) (hn : 1 ≤ n) (h : OK d) (h' : OK d') :
    AG (circulationTime p d st sel axis bound) (circulationTime p d' st sel axis bound) := by
  unfold circulationTime
  split_ifs
  · exact Or.inl ⟨_, rfl, rfl⟩
  · refine Agree.get p h h' (by omega) fun d d' h h' => ?_
    refine innerSteps_agree p hn h h' fun l hl => ?_
    exact (circLoop_agree p sel _ l hl _ _ h h').bind fun d d' a h h' => Agree.value h h' _

theorem twoBoundary_agree (p : Profile) (st : Stats K) (sel : Selector K) (axis : Fin 3) (lo hi : F K) (hn : 1 ≤ n) (h : OK d) (h' : OK d') :
    AG (circulationTwoBoundary p d st sel axis lo hi) (circulationTwoBoundary p d' st sel axis lo hi) := by
  unfold circulationTwoBoundary
  split_ifs
  · exact Or.inl ⟨_, rfl, rfl⟩
  · exact Or.inl ⟨_, rfl, rfl⟩
  · refine Agree.get p h h' (by omega) fun d d' h h' => ?_
    refine innerSteps_agree p hn h h' fun l hl => ?_
    exact (circLoop_agree p sel _ l hl _ _ h h').bind fun d d' a h h' => Agree.value h h' _

theorem occupancy_agree (p : Profile) (g : Grid K) (sel : Selector K) (minV : F K) (hn : 3 ≤ n) (h : OK d) (h' : OK d') :
    AG (occupancyfield p d g sel minV) (occupancyfield p d' g sel minV) := by
  unfold occupancyfield
  refine Agree.setup p h h' fun d d' h h' hx hx' => ?_
  refine Agree.stepsBut p hn h h' ?_
  refine Agree.bind (x := occupancyLoop p sel g minV (List.range (n - 3)) d (g.newZeros, 0)) ?_ fun d d' a h h' => Agree.value h h' _
  unfold occupancyLoop
  refine Agree.look p (fun s t r => do
    let r' ← r.1.getBuf p (t + 1) 0
    let s ← sampleStep sel (occupancyBody p g minV r'.2) s r.2
    pure (r'.1, s)) ?_ _ (by omega) h h' hx hx' _
  intro a t r r' hr e
  obtain ⟨r1, e1, e2⟩ := run_bind_inv e
  obtain ⟨s, _, e3⟩ := run_bind_inv e2
  cases e3
  exact Dm.getBuf_steady p hr e1

theorem homogeneity_agree (p : Profile) (g : Grid K) (sel : Selector K) (minV : F K) (hn : 3 ≤ n) (h : OK d) (h' : OK d') :
    AG (homogenityIndex p d g sel minV) (homogenityIndex p d' g sel minV) := by
  unfold homogenityIndex
  refine (occupancy_agree p g sel minV hn h h').bind fun d d' a h h' => ?_
  exact Agree.run _ fun _ _ => Agree.value h h' _

theorem futureLoop_agree {σ : Type} (p : Profile) (st : Stats K) (sel : Selector K) (dt : F K)
    (body : Timestep K → σ → Timestep K → ℕ → Run σ) (m : ℕ) (hm : m ≤ n) (s : σ) (h : OK d) (h' : OK d')
    (hx : d.extra = [firstBuf Timestep.default file n] ∧ d.names = [0])
    (hx' : d'.extra = [firstBuf Timestep.default file n] ∧ d'.names = [0]) :
    AG (futureLoop p st sel dt body (List.range m) d s) (futureLoop p st sel dt body (List.range m) d' s) := by
  unfold futureLoop
  refine Agree.look p (fun s t r =>
    if sel.timestepValid r.2.time then do
      match ← closest p st.times (r.2.time + dt) with
      | none => pure (r.1, s)
      | some t' => do
        let r' ← r.1.getBuf p t' 0
        let s ← forParticles sel r.2 (fun s i => body r'.2 s r.2 i) s
        pure (r'.1, s)
    else pure (r.1, s)) ?_ m hm h h' hx hx' s
  intro a t r r' hr e
  split_ifs at e
  · obtain ⟨c, e1, e2⟩ := run_bind_inv e
    cases c with
    | none => cases e2; exact hr
    | some t' =>
      obtain ⟨r1, e3, e4⟩ := run_bind_inv e2
      obtain ⟨s, _, e5⟩ := run_bind_inv e4
      cases e5
      exact Dm.getBuf_steady p hr e3
  · cases e; exact hr

theorem dispersion_agree (p : Profile) (st : Stats K) (g : Grid K) (sel : Selector K) (dt : F K) (h : OK d) (h' : OK d') :
    AG (dispersion p d st g sel dt) (dispersion p d' st g sel dt) := by
  unfold dispersion
  refine Agree.setup p h h' fun d d' h h' hx hx' => ?_
  refine Agree.allSteps p h h' ?_
  refine (futureLoop_agree p st sel dt _ n le_rfl _ h h' hx hx').bind fun d d' a h h' => ?_
  exact Agree.run _ fun _ _ => Agree.run _ fun _ _ => Agree.value h h' _

theorem msdField_agree (p : Profile) (st : Stats K) (g : Grid K) (sel : Selector K) (dt : F K) (hn : 1 ≤ n) (h : OK d) (h' : OK d') :
    AG (msdField p d st g sel dt) (msdField p d' st g sel dt) := by
  unfold msdField
  refine Agree.setup p h h' fun d d' h h' hx hx' => ?_
  refine Agree.stepsBut p hn h h' ?_
  refine (futureLoop_agree p st sel dt _ (n - 1) (by omega) _ h h' hx hx').bind fun d d' a h h' => ?_
  exact Agree.run _ fun _ _ => Agree.run _ fun _ _ => Agree.run _ fun _ _ => Agree.value h h' _

theorem msdCurve_agree (p : Profile) (st : Stats K) (g : Grid K) (sel : Selector K) (t0 t1 : F K) (steps : ℕ) (hn : 1 ≤ n) (h : OK d) (h' : OK d') :
    AG (msdCurve p d st g sel t0 t1 steps) (msdCurve p d' st g sel t0 t1 steps) := by
  unfold msdCurve
  refine Agree.bind (x := (linspace t0 t1 steps).foldlM (fun (s : Dm (Timestep K) × List (F K)) t => do
    let f ← msdField p s.1 st g sel t
    pure (f.1, s.2 ++ [msdValue f.2])) (d, [])) ?_ fun d d' a h h' => Agree.value h h' _
  refine Agree.fold _ _ (fun t _ d d' a h h' => ?_) h h' []
  exact (msdField_agree p st g sel t hn h h').bind fun d d' b h h' => Agree.value h h' _

end

end Up4
