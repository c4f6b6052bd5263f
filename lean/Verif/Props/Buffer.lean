import Verif.Model.Data
import Verif.Props.Shape

set_option linter.unusedSectionVars false

/-! # C28–C30: buffered reading -/

namespace Up4
open F

variable {K : Type} [Field K] [LinearOrder K] [IsStrictOrderedRing K] [FloorRing K] [Arith K]
variable {T : Type}

/-- A buffer that holds a non-empty window of the file. -/
def Buf.Good (file : ℕ → T) (n : ℕ) (b : Buf T) : Prop :=
  b.lo < b.hi ∧ b.hi ≤ n ∧ b.size = b.hi - b.lo ∧ b.size ≤ BUFFERSIZE ∧
    ∀ i, b.lo + i < b.hi → b.data i = file (b.lo + i)

theorem Buf.load_good (p : Profile) (kind : Kind) (file : ℕ → T) (n : ℕ) (b : Buf T) (lo hi : ℕ)
    (h1 : lo < hi) (h2 : lo < n) (h3 : hi - lo ≤ BUFFERSIZE) :
    ∃ b', b.load p kind file n lo hi = .ok b' ∧ b'.Good file n ∧ b'.lo = lo ∧ b'.hi = min hi n := by
  unfold Buf.load
  dsimp only
  have e : (if hi ≥ n then n else hi) = min hi n := by split_ifs <;> omega
  rw [e, if_pos (by omega), if_pos (by omega)]
  refine ⟨_, rfl, ⟨?_, ?_, rfl, ?_, ?_⟩, rfl, rfl⟩
  · change lo < min hi n; omega
  · change min hi n ≤ n; omega
  · change min hi n - lo ≤ BUFFERSIZE; omega
  · intro i hi'
    change lo + i < min hi n at hi'
    change (if i < min hi n - lo then file (lo + i) else b.data i) = _
    rw [if_pos (by omega)]

/-- The chunk computed in floating point is the integer quotient, for up to `2^50` timesteps. -/
theorem chunk_eq [LawfulArith K] (t : ℕ) (ht : t ≤ 2 ^ 50) : Dm.chunk K t = t / BUFFERSIZE := by
  have hB : BUFFERSIZE = 20000 := rfl
  unfold Dm.chunk
  rw [ofNat_eq t (by omega), ofNat_eq BUFFERSIZE (by norm_num [hB]),
    div_fin_ne _ (by rw [hB]; norm_num)]
  set q := t / BUFFERSIZE with hq
  have hq' : q ≤ 2 ^ 36 := by rw [hq, hB]; omega
  have hlo : ((q : ℕ) : K) ≤ (t : K) / (BUFFERSIZE : ℕ) := by
    rw [le_div_iff₀ (by rw [hB]; norm_num)]
    have : q * BUFFERSIZE ≤ t := Nat.div_mul_le_self t BUFFERSIZE
    exact_mod_cast this
  -- the representable number (q+1) - 2^-15 bounds the quotient from above
  have hup : (t : K) / (BUFFERSIZE : ℕ) ≤ (((q + 1) * 2 ^ 15 - 1 : ℕ) : K) / 2 ^ 15 := by
    rw [div_le_div_iff₀ (by rw [hB]; norm_num) (by norm_num)]
    have : t * 2 ^ 15 ≤ ((q + 1) * 2 ^ 15 - 1) * BUFFERSIZE := by
      have : t < (q + 1) * BUFFERSIZE := by rw [hq, hB]; omega
      rw [hB] at this ⊢
      omega
    exact_mod_cast this
  clear_value q
  have hrep := LawfulArith.rnd_dyadic (K := K) ((q + 1) * 2 ^ 15 - 1) 15 (by omega) (by norm_num)
  obtain ⟨y, hy, h1, h2⟩ := rnd_between (K := K) (rep_nat (n := q) (by omega)) hrep hlo hup
  rw [hy]
  have hfl : ⌊y⌋ = (q : ℤ) := by
    rw [Int.floor_eq_iff]
    refine ⟨by exact_mod_cast h1, lt_of_le_of_lt h2 ?_⟩
    rw [div_lt_iff₀ (by norm_num)]
    have : ((q + 1) * 2 ^ 15 - 1 : ℕ) < (q + 1) * 2 ^ 15 := by omega
    exact_mod_cast this
  simp only [F.floor, F.toUsize, hfl]
  rw [show (((q : ℤ) : K)) = ((q : ℕ) : K) by norm_cast, Nat.floor_natCast]
  have : q ≤ usizeMax := by unfold usizeMax; omega
  omega

/-- What every manager keeps: the main buffer is a window of the file, and names match buffers. -/
def Dm.Inv (d : Dm T) : Prop := d.main.Good d.file d.n ∧ d.names.length = d.extra.length ∧ d.n ≤ 2 ^ 50

theorem usub_ok (p : Profile) {a b : ℕ} (h : b ≤ a) (ha : a ≤ 2 ^ 63) : usub p a b = .ok (a - b) :=
  usub_of_le p h (by unfold usizeMod; omega)

theorem uadd_ok (p : Profile) {a b : ℕ} (h : a + b ≤ 2 ^ 63) : uadd p a b = .ok (a + b) :=
  uadd_of_lt p (by unfold usizeMod; omega)

theorem at_good {file : ℕ → T} {n : ℕ} {b : Buf T} (h : b.Good file n) {t : ℕ} (h1 : b.lo ≤ t) (h2 : t < b.hi) :
    b.at' (t - b.lo) = .ok (file t) := by
  obtain ⟨_, _, hs, hB, hd⟩ := h
  unfold Buf.at'
  rw [if_pos (by omega), hd _ (by omega)]
  congr 2; omega

/-- One `get_timestep`: it succeeds, returns the stored timestep and keeps everything but the main buffer. -/
theorem Dm.get_ok [LawfulArith K] (p : Profile) (d : Dm T) (h : d.Inv) (t : ℕ) (ht : t < d.n) :
    ∃ b, d.get K p t = .ok ({ d with main := b }, d.file t) ∧ b.Good d.file d.n ∧
      (d.n ≤ BUFFERSIZE → d.main.lo = 0 → d.main.hi = d.n → b.lo = 0 ∧ b.hi = d.n) := by
  obtain ⟨hg, _, hn⟩ := h
  obtain ⟨h1, h2, h3, h4, h5⟩ := id hg
  suffices H : ∃ b, d.refresh K p t (d.main.hi - 1) = .ok b ∧ b.Good d.file d.n ∧ b.lo ≤ t ∧ t < b.hi ∧
      (d.n ≤ BUFFERSIZE → d.main.lo = 0 → d.main.hi = d.n → b.lo = 0 ∧ b.hi = d.n) by
    obtain ⟨b, e, hb, k1, k2, k3⟩ := H
    refine ⟨b, ?_, hb, k3⟩
    unfold Dm.get
    rw [usub_ok p (by omega) (by omega), run_bind_ok, e, run_bind_ok]
    rw [usub_ok p k1 (by omega), run_bind_ok, at_good hb k1 k2, run_bind_ok]
    rfl
  unfold Dm.refresh
  by_cases ha : t > d.main.hi - 1
  · rw [if_pos ha, uadd_ok p (by omega), run_bind_ok]
    obtain ⟨b, e, hb, e1, e2⟩ := Buf.load_good p d.kind d.file d.n d.main t (t + d.main.size) (by omega) ht (by omega)
    exact ⟨b, e, hb, by omega, by omega, by omega⟩
  · rw [if_neg ha]
    by_cases hc : t < d.main.lo
    · rw [if_pos hc, chunk_eq t (by omega)]
      have hB : BUFFERSIZE = 20000 := rfl
      have hq1 : t / BUFFERSIZE * BUFFERSIZE ≤ t := Nat.div_mul_le_self t _
      have hq2 : t < (t / BUFFERSIZE + 1) * BUFFERSIZE := by rw [hB]; omega
      have hq3 : (t / BUFFERSIZE + 1) * BUFFERSIZE - t / BUFFERSIZE * BUFFERSIZE = BUFFERSIZE := by rw [hB]; omega
      obtain ⟨b, e, hb, e1, e2⟩ := Buf.load_good p d.kind d.file d.n d.main (t / BUFFERSIZE * BUFFERSIZE)
        ((t / BUFFERSIZE + 1) * BUFFERSIZE) (by omega) (by omega) (by omega)
      exact ⟨b, e, hb, by omega, by omega, by omega⟩
    · rw [if_neg hc]
      exact ⟨d.main, rfl, hg, by omega, by omega, fun _ h1 h2 => ⟨h1, h2⟩⟩

theorem Dm.new_ok (p : Profile) (kind : Kind) (file : ℕ → T) (n : ℕ) (dflt : T) (hn : 1 ≤ n) (hn' : n ≤ 2 ^ 50) :
    ∃ d, Dm.new p kind file n dflt = .ok d ∧ d.Inv ∧ d.file = file ∧ d.n = n ∧ d.kind = kind ∧ d.extra = [] ∧
      d.names = [] ∧ d.main.lo = 0 ∧ d.main.hi = min BUFFERSIZE n := by
  obtain ⟨b, e, hb, e1, e2⟩ := Buf.load_good p kind file n ⟨fun _ => dflt, 0, 0, BUFFERSIZE⟩ 0 BUFFERSIZE
    (by norm_num [BUFFERSIZE]) (by omega) (by omega)
  unfold Dm.new
  rw [e, run_bind_ok]
  exact ⟨_, rfl, ⟨hb, rfl, hn'⟩, rfl, rfl, rfl, rfl, rfl, e1, e2⟩

/-! ### Histories -/

/-- The requests a user of a data manager can make. -/
inductive Req where
  | get (t : ℕ)
  | setup (name : ℕ)
  | getBuf (t id : ℕ)

/-- Serve one request; the answer of a read is the timestep. -/
def Dm.step (K : Type) [Field K] [LinearOrder K] [IsStrictOrderedRing K] [FloorRing K] [Arith K]
    (p : Profile) (dflt : T) (d : Dm T) : Req → Run (Dm T × Option T)
  | .get t => do let (d, x) ← d.get K p t; pure (d, some x)
  | .setup name => do let d ← d.setup p dflt name; pure (d, none)
  | .getBuf t id => do let (d, x) ← d.getBuf p t id; pure (d, some x)

/-- Serve a sequence of requests, collecting the answers. -/
def Dm.serve (K : Type) [Field K] [LinearOrder K] [IsStrictOrderedRing K] [FloorRing K] [Arith K]
    (p : Profile) (dflt : T) : Dm T → List Req → Run (Dm T × List (Option T))
  | d, [] => .ok (d, [])
  | d, r :: rs => do
    let (d, x) ← d.step K p dflt r
    let (d, xs) ← Dm.serve K p dflt d rs
    pure (d, x :: xs)

/-- **C28.** For both managers, both build profiles, every dataset of `1 … 2^50` timesteps and every sequence
of requests for existing timesteps in any order: no request panics and each returns the timestep stored
under the requested index. -/
theorem C28_transparent [LawfulArith K] (p : Profile) (kind : Kind) (file : ℕ → T) (n : ℕ) (dflt : T)
    (hn : 1 ≤ n) (hn' : n ≤ 2 ^ 50) (ts : List ℕ) (hts : ∀ t ∈ ts, t < n) :
    ∃ d d', Dm.new p kind file n dflt = .ok d ∧
      d.serve K p dflt (ts.map .get) = .ok (d', ts.map fun t => some (file t)) := by
  obtain ⟨d, e, hinv, hf, hdn, _⟩ := Dm.new_ok p kind file n dflt hn hn'
  refine ⟨d, ?_⟩
  subst hf hdn
  rw [e]
  clear e
  suffices h : ∀ (ts : List ℕ) (d0 : Dm T), d0.Inv → d0.file = d.file → d0.n = d.n → (∀ t ∈ ts, t < d.n) →
      ∃ d', d0.serve K p dflt (ts.map .get) = .ok (d', ts.map fun t => some (d.file t)) by
    obtain ⟨d', h⟩ := h ts d hinv rfl rfl hts
    exact ⟨d', rfl, h⟩
  intro ts
  induction ts with
  | nil => intro d0 _ _ _ _; exact ⟨d0, rfl⟩
  | cons t ts ih =>
    intro d0 hd0 hf hn0 hts
    obtain ⟨b, e, hb, _⟩ := Dm.get_ok (K := K) p d0 hd0 t (by rw [hn0]; exact hts t (by simp))
    obtain ⟨d', h⟩ := ih { d0 with main := b } ⟨hb, hd0.2⟩ hf hn0 (fun t ht => hts t (by simp [ht]))
    refine ⟨d', ?_⟩
    simp only [List.map_cons, Dm.serve, Dm.step, e, run_bind_ok, run_pure]
    rw [h, run_bind_ok, hf]

/-- Witness for C28: three timesteps read backwards and forwards. -/
example : ∃ d d', Dm.new .debug .tdata (fun t => t * t) 3 0 = .ok d ∧
    d.serve ℝ .debug 0 ([2, 0, 1, 2].map Req.get) = .ok (d', [some 4, some 0, some 1, some 4]) :=
  C28_transparent (K := ℝ) .debug .tdata (fun t => t * t) 3 0 (by norm_num) (by norm_num) [2, 0, 1, 2] (by decide)

/-! ### C30 -/

theorem Dm.setup_frame (p : Profile) (dflt : T) {d d' : Dm T} (name : ℕ) (h : d.setup p dflt name = .ok d') :
    d'.main = d.main ∧ d'.file = d.file ∧ d'.n = d.n ∧ d'.kind = d.kind ∧
    (name ∈ d.names → d'.names = d.names ∧ d'.extra.length = d.extra.length) ∧
    (name ∉ d.names → d'.names = d.names ++ [name] ∧ d'.extra.length = d.extra.length + 1) := by
  unfold Dm.setup at h
  by_cases hc : d.names.contains name = true
  · rw [if_pos hc] at h
    have hm : name ∈ d.names := by simpa using hc
    dsimp only at h
    split at h
    · cases h
    · obtain ⟨b', e, h⟩ := run_bind_inv h
      cases h
      refine ⟨rfl, rfl, rfl, rfl, fun _ => ⟨rfl, ?_⟩, fun hn => absurd hm hn⟩
      change (d.extra.set _ _).length = _
      rw [List.length_set]
  · rw [if_neg hc] at h
    have hm : name ∉ d.names := by simpa using hc
    obtain ⟨b', e, h⟩ := run_bind_inv h
    cases h
    refine ⟨rfl, rfl, rfl, rfl, fun hn => absurd hn hm, fun _ => ⟨rfl, ?_⟩⟩
    change (d.extra ++ [b']).length = _
    simp

theorem Dm.getBuf_frame (p : Profile) {d d' : Dm T} {x : T} (t id : ℕ) (h : d.getBuf p t id = .ok (d', x)) :
    d'.main = d.main ∧ d'.file = d.file ∧ d'.n = d.n ∧ d'.kind = d.kind ∧ d'.names = d.names ∧
      d'.extra.length = d.extra.length := by
  unfold Dm.getBuf at h
  cases hb : d.extra[id]? with
  | none => rw [hb] at h; cases h
  | some b =>
    rw [hb] at h
    dsimp only at h
    obtain ⟨_, _, h⟩ := run_bind_inv h
    obtain ⟨_, _, h⟩ := run_bind_inv h
    obtain ⟨_, _, h⟩ := run_bind_inv h
    obtain ⟨_, _, h⟩ := run_bind_inv h
    obtain ⟨_, _, h⟩ := run_bind_inv h
    cases h
    refine ⟨rfl, rfl, rfl, rfl, rfl, ?_⟩
    change (d.extra.set _ _).length = _
    rw [List.length_set]

theorem Dm.setup_inv (p : Profile) (dflt : T) {d d' : Dm T} (name : ℕ) (hd : d.Inv) (h : d.setup p dflt name = .ok d') :
    d'.Inv := by
  obtain ⟨h1, h2, h3, _, h5, h6⟩ := Dm.setup_frame p dflt name h
  refine ⟨by rw [h1, h2, h3]; exact hd.1, ?_, by rw [h3]; exact hd.2.2⟩
  by_cases hm : name ∈ d.names
  · obtain ⟨a, b⟩ := h5 hm; rw [a, b]; exact hd.2.1
  · obtain ⟨a, b⟩ := h6 hm; rw [a, b, List.length_append, List.length_singleton, hd.2.1]

theorem Dm.getBuf_inv (p : Profile) {d d' : Dm T} {x : T} (t id : ℕ) (hd : d.Inv) (h : d.getBuf p t id = .ok (d', x)) :
    d'.Inv := by
  obtain ⟨h1, h2, h3, _, h5, h6⟩ := Dm.getBuf_frame p t id h
  exact ⟨by rw [h1, h2, h3]; exact hd.1, by rw [h5, h6]; exact hd.2.1, by rw [h3]; exact hd.2.2⟩

/-- Any non-panicking history keeps the invariant and the file, and answers `get` requests correctly. -/
theorem Dm.serve_spec [LawfulArith K] (p : Profile) (dflt : T) (reqs : List Req) :
    ∀ (d d' : Dm T) (outs : List (Option T)), d.Inv → (∀ t, Req.get t ∈ reqs → t < d.n) →
      d.serve K p dflt reqs = .ok (d', outs) →
      d'.Inv ∧ d'.file = d.file ∧ d'.n = d.n ∧ d'.kind = d.kind ∧
        ∀ i t : ℕ, reqs[i]? = some (Req.get t) → outs[i]? = some (some (d.file t)) := by
  induction reqs with
  | nil =>
    intro d d' outs hd _ h
    cases h
    exact ⟨hd, rfl, rfl, rfl, by intro i t h; simp at h⟩
  | cons r rs ih =>
    intro d d' outs hd hlt h
    simp only [Dm.serve] at h
    obtain ⟨⟨d1, x⟩, e1, h⟩ := run_bind_inv h
    obtain ⟨⟨d2, xs⟩, e2, h⟩ := run_bind_inv h
    cases h
    have key : d1.Inv ∧ d1.file = d.file ∧ d1.n = d.n ∧ d1.kind = d.kind ∧ (∀ t, r = Req.get t → x = some (d.file t)) := by
      cases r with
      | get t =>
        obtain ⟨b, e, hb, _⟩ := Dm.get_ok (K := K) p d hd t (hlt t (by simp))
        simp only [Dm.step, e, run_bind_ok, run_pure] at e1
        cases e1
        exact ⟨⟨hb, hd.2⟩, rfl, rfl, rfl, by intro s hs; cases hs; rfl⟩
      | setup name =>
        obtain ⟨d3, e, h3⟩ := run_bind_inv e1
        cases h3
        have hf := Dm.setup_frame p dflt name e
        exact ⟨Dm.setup_inv p dflt name hd e, hf.2.1, hf.2.2.1, hf.2.2.2.1, by intro s hs; cases hs⟩
      | getBuf t id =>
        obtain ⟨⟨d3, y⟩, e, h3⟩ := run_bind_inv e1
        cases h3
        have hf := Dm.getBuf_frame p t id e
        exact ⟨Dm.getBuf_inv p t id hd e, hf.2.1, hf.2.2.1, hf.2.2.2.1, by intro s hs; cases hs⟩
    obtain ⟨k1, k2, k3, k4, k5⟩ := key
    obtain ⟨j1, j2, j3, j4, j5⟩ := ih d1 d2 xs k1 (by rw [k3]; intro t ht; exact hlt t (by simp [ht])) e2
    refine ⟨j1, j2.trans k2, j3.trans k3, j4.trans k4, ?_⟩
    intro i t hi
    cases i with
    | zero =>
      simp only [List.getElem?_cons_zero, Option.some.injEq] at hi ⊢
      exact k5 t hi
    | succ i =>
      simp only [List.getElem?_cons_succ] at hi ⊢
      rw [← k2]; exact j5 i t hi

/-- **C30.** Whatever `setup_buffer` and `get_timestep_buffer` requests are mixed in, every `get_timestep` request
in a history that does not panic returns the timestep stored under its index. -/
theorem C30_no_interference [LawfulArith K] (p : Profile) (kind : Kind) (file : ℕ → T) (n : ℕ) (dflt : T)
    (hn : 1 ≤ n) (hn' : n ≤ 2 ^ 50) (reqs : List Req) (hlt : ∀ t, Req.get t ∈ reqs → t < n)
    (d d' : Dm T) (outs : List (Option T)) (hnew : Dm.new p kind file n dflt = .ok d)
    (h : d.serve K p dflt reqs = .ok (d', outs)) (i t : ℕ) (hi : reqs[i]? = some (Req.get t)) :
    outs[i]? = some (some (file t)) := by
  obtain ⟨d0, e, hinv, hf, hdn, _⟩ := Dm.new_ok p kind file n dflt hn hn'
  rw [hnew] at e; cases e
  have := (Dm.serve_spec (K := K) p dflt reqs d d' outs hinv (by rw [hdn]; exact hlt) h).2.2.2.2 i t hi
  rwa [hf] at this

/-- **C30.** Setting up a known buffer again resets it to the start of the file and creates no second one;
an unknown name adds exactly one buffer. -/
theorem C30_setup (p : Profile) (dflt : T) (d : Dm T) (hd : d.Inv) (name : ℕ) :
    ∃ d', d.setup p dflt name = .ok d' ∧ d'.main = d.main ∧
      d'.extra.length = d.extra.length + (if name ∈ d.names then 0 else 1) ∧
      ∃ b, d'.extra[d'.names.findIdx (· == name)]? = some b ∧ b.Good d.file d.n ∧ b.lo = 0 ∧
        b.hi = min BUFFERSIZE d.n := by
  obtain ⟨⟨hg1, hg2, _⟩, hl, _⟩ := id hd
  have hB : 0 < BUFFERSIZE := by norm_num [BUFFERSIZE]
  unfold Dm.setup
  by_cases hm : name ∈ d.names
  · have hc : d.names.contains name = true := by simpa using hm
    rw [if_pos hc, if_pos hm]
    have hidx : d.names.findIdx (· == name) < d.extra.length := by
      rw [← hl]; apply List.findIdx_lt_length_of_exists; exact ⟨name, hm, by simp⟩
    dsimp only
    rw [List.getElem?_eq_getElem hidx]
    obtain ⟨b, e, hb, e1, e2⟩ := Buf.load_good p d.kind d.file d.n
      { d.extra[d.names.findIdx (· == name)] with lo := 0, hi := BUFFERSIZE } 0 BUFFERSIZE hB (by omega) (by omega)
    dsimp only
    rw [e, run_bind_ok]
    refine ⟨_, rfl, rfl, ?_, b, ?_, hb, e1, e2⟩
    · change (d.extra.set _ _).length = _; rw [List.length_set]; rfl
    · change (d.extra.set _ _)[_]? = _
      rw [List.getElem?_set_self hidx]
  · have hc : ¬ d.names.contains name = true := by simpa using hm
    rw [if_neg hc, if_neg hm]
    obtain ⟨b, e, hb, e1, e2⟩ := Buf.load_good p d.kind d.file d.n
      ⟨fun _ => dflt, 0, BUFFERSIZE, BUFFERSIZE⟩ 0 BUFFERSIZE hB (by omega) (by omega)
    rw [e, run_bind_ok]
    refine ⟨_, rfl, rfl, ?_, b, ?_, hb, e1, e2⟩
    · change (d.extra ++ [b]).length = _; simp
    · change (d.extra ++ [b])[(d.names ++ [name]).findIdx (· == name)]? = _
      have : (d.names ++ [name]).findIdx (· == name) = d.extra.length := by
        rw [List.findIdx_append]
        have : d.names.findIdx (· == name) = d.names.length :=
          List.findIdx_eq_length.2 (by intro x hx; simp; rintro rfl; exact hm hx)
        rw [this, if_neg (by omega)]
        simp [hl]
      rw [this]; simp


/-! ### C29: the look-ahead buffers -/

/-- The answers a correct manager gives: a read returns the timestep stored under its index. -/
def answers (file : ℕ → T) (reqs : List Req) : List (Option T) :=
  reqs.map fun r => match r with
    | .get t => some (file t)
    | .setup _ => none
    | .getBuf t _ => some (file t)

/-- The requests make sense: timesteps exist, buffer ids were set up before (`names` are the names known so far). -/
def ValidReqs (n : ℕ) : List ℕ → List Req → Prop
  | _, [] => True
  | names, .get t :: rs => t < n ∧ ValidReqs n names rs
  | names, .setup nm :: rs => ValidReqs n (if nm ∈ names then names else names ++ [nm]) rs
  | names, .getBuf t id :: rs => t < n ∧ id < names.length ∧ ValidReqs n names rs

/-- Everything fits into one window. -/
def Dm.Whole (d : Dm T) : Prop :=
  d.main.lo = 0 ∧ d.main.hi = d.n ∧ ∀ b ∈ d.extra, b.Good d.file d.n ∧ b.lo = 0 ∧ b.hi = d.n

theorem Dm.setup_extra (p : Profile) (dflt : T) (d : Dm T) (hd : d.Inv) (name : ℕ) :
    ∃ b, b.Good d.file d.n ∧ b.lo = 0 ∧ b.hi = min BUFFERSIZE d.n ∧
      d.setup p dflt name = .ok (if name ∈ d.names then
        { d with extra := d.extra.set (d.names.findIdx (· == name)) b }
        else { d with extra := d.extra ++ [b], names := d.names ++ [name] }) := by
  obtain ⟨⟨hg1, hg2, _⟩, hl, _⟩ := id hd
  have hB : 0 < BUFFERSIZE := by norm_num [BUFFERSIZE]
  unfold Dm.setup
  by_cases hm : name ∈ d.names
  · have hc : d.names.contains name = true := by simpa using hm
    simp only [if_pos hc, if_pos hm]
    have hidx : d.names.findIdx (· == name) < d.extra.length := by
      rw [← hl]; apply List.findIdx_lt_length_of_exists; exact ⟨name, hm, by simp⟩
    rw [List.getElem?_eq_getElem hidx]
    obtain ⟨b, e, hb, e1, e2⟩ := Buf.load_good p d.kind d.file d.n
      { d.extra[d.names.findIdx (· == name)] with lo := 0, hi := BUFFERSIZE } 0 BUFFERSIZE hB (by omega) (by omega)
    dsimp only
    rw [e, run_bind_ok]
    exact ⟨b, hb, e1, e2, rfl⟩
  · have hc : ¬ d.names.contains name = true := by simpa using hm
    simp only [if_neg hc, if_neg hm]
    obtain ⟨b, e, hb, e1, e2⟩ := Buf.load_good p d.kind d.file d.n
      ⟨fun _ => dflt, 0, BUFFERSIZE, BUFFERSIZE⟩ 0 BUFFERSIZE hB (by omega) (by omega)
    rw [e, run_bind_ok]
    exact ⟨b, hb, e1, e2, rfl⟩

theorem Dm.getBuf_whole (p : Profile) (d : Dm T) (hd : d.Inv) (hw : d.Whole) (t id : ℕ) (ht : t < d.n)
    (hid : id < d.extra.length) : d.getBuf p t id = .ok (d, d.file t) := by
  obtain ⟨hg, hl, hn⟩ := hd
  obtain ⟨w1, w2, w3⟩ := hw
  obtain ⟨hb, e1, e2⟩ := w3 _ (List.getElem_mem hid)
  have s1 : d.bufStep1 p d.extra[id] t (d.n - 1) = .ok d.extra[id] := by
    unfold Dm.bufStep1
    rw [if_neg (by omega), if_neg (by omega)]
  have s2 : d.bufStep2 p d.extra[id] t = .ok d.extra[id] := by
    unfold Dm.bufStep2
    rw [if_neg]
    cases d.kind <;> simp [e1, w1]
  have s3 : d.bufRead d.extra[id] t = .ok (d.file t) := by
    unfold Dm.bufRead
    have hm := at_good hg (t := t) (by omega) (by omega)
    have hx := at_good hb (t := t) (by omega) (by omega)
    rw [w1, Nat.sub_zero] at hm
    rw [e1, Nat.sub_zero] at hx
    cases d.kind
    · exact hm
    · exact hx
  unfold Dm.getBuf
  rw [List.getElem?_eq_getElem hid]
  dsimp only
  rw [e2, usub_ok p (by omega) (by omega), run_bind_ok, s1, run_bind_ok, s2, run_bind_ok, e1,
    usub_ok p (by omega) (by omega), run_bind_ok, Nat.sub_zero, s3, run_bind_ok, List.set_getElem_self]
  rfl

/-- **C29 (datasets of at most 20000 timesteps).** For both managers and both profiles: every history of
`get_timestep`, `setup_buffer` and `get_timestep_buffer` requests for existing timesteps and known buffers runs
without panic, and every read, look-ahead reads included, returns the timestep stored under its index. -/
theorem C29_small [LawfulArith K] (p : Profile) (kind : Kind) (file : ℕ → T) (n : ℕ) (dflt : T)
    (hn : 1 ≤ n) (hn' : n ≤ 20000) (reqs : List Req) (hv : ValidReqs n [] reqs) :
    ∃ d d', Dm.new p kind file n dflt = .ok d ∧ d.serve K p dflt reqs = .ok (d', answers file reqs) := by
  have hB : BUFFERSIZE = 20000 := rfl
  obtain ⟨d, e, hinv, hf, hdn, _, hex, hnm, hlo, hhi⟩ := Dm.new_ok p kind file n dflt hn (by omega)
  suffices H : ∀ (reqs : List Req) (d0 : Dm T), d0.Inv → d0.Whole → d0.file = file → d0.n = n →
      ValidReqs n d0.names reqs → ∃ d', d0.serve K p dflt reqs = .ok (d', answers file reqs) by
    obtain ⟨d', h⟩ := H reqs d hinv ⟨hlo, by omega, by rw [hex]; intro b hb; simp at hb⟩ hf hdn (by rw [hnm]; exact hv)
    exact ⟨d, d', e, h⟩
  clear hv
  intro reqs
  induction reqs with
  | nil => intro d0 _ _ _ _ _; exact ⟨d0, rfl⟩
  | cons r rs ih =>
    intro d0 hi hw hf0 hn0 hv
    obtain ⟨w1, w2, w3⟩ := id hw
    cases r with
    | get t =>
      obtain ⟨b, e, hb, hbw⟩ := Dm.get_ok (K := K) p d0 hi t (by rw [hn0]; exact hv.1)
      obtain ⟨b1, b2⟩ := hbw (by omega) w1 w2
      obtain ⟨d', h⟩ := ih { d0 with main := b } ⟨hb, hi.2⟩ ⟨b1, b2, w3⟩ hf0 hn0 hv.2
      refine ⟨d', ?_⟩
      simp only [Dm.serve, Dm.step, e, run_bind_ok, run_pure]
      rw [h, run_bind_ok, hf0]; rfl
    | setup nm =>
      obtain ⟨b, hb, e1, e2, e⟩ := Dm.setup_extra p dflt d0 hi nm
      have hI := Dm.setup_inv p dflt nm hi e
      have key : ∃ d', (if nm ∈ d0.names then { d0 with extra := d0.extra.set (d0.names.findIdx (· == nm)) b }
        else { d0 with extra := d0.extra ++ [b], names := d0.names ++ [nm] } : Dm T).serve K p dflt rs
          = .ok (d', answers file rs) := by
        by_cases hm : nm ∈ d0.names
        · rw [if_pos hm] at hI ⊢
          refine ih _ hI ⟨w1, w2, ?_⟩ hf0 hn0 ?_
          · intro b' hb'
            rcases List.mem_or_eq_of_mem_set hb' with h | h
            · exact w3 b' h
            · subst h; exact ⟨hb, e1, by rw [e2]; change min _ d0.n = d0.n; omega⟩
          · have := hv; simp only [ValidReqs, if_pos hm] at this; exact this
        · rw [if_neg hm] at hI ⊢
          refine ih _ hI ⟨w1, w2, ?_⟩ hf0 hn0 ?_
          · intro b' hb'
            rcases List.mem_append.1 hb' with h | h
            · exact w3 b' h
            · rw [List.mem_singleton] at h; subst h; exact ⟨hb, e1, by rw [e2]; change min _ d0.n = d0.n; omega⟩
          · have := hv; simp only [ValidReqs, if_neg hm] at this; exact this
      obtain ⟨d', h⟩ := key
      refine ⟨d', ?_⟩
      simp only [Dm.serve, Dm.step, e, run_bind_ok, run_pure]
      rw [h, run_bind_ok]; rfl
    | getBuf t id =>
      have e := Dm.getBuf_whole p d0 hi hw t id (by rw [hn0]; exact hv.1) (by rw [← hi.2.1]; exact hv.2.1)
      obtain ⟨d', h⟩ := ih d0 hi hw hf0 hn0 hv.2.2
      refine ⟨d', ?_⟩
      simp only [Dm.serve, Dm.step, e, run_bind_ok, run_pure]
      rw [h, run_bind_ok, hf0]; rfl

/-- Witness for C29: the look-ahead pattern of the occupancy field on three timesteps. -/
example : ∃ d d', Dm.new .release .pdata (fun t => t * t) 3 0 = .ok d ∧
    d.serve ℝ .release 0 [.setup 0, .get 0, .getBuf 1 0, .get 1, .getBuf 2 0, .getBuf 0 0]
      = .ok (d', [none, some 0, some 1, some 1, some 4, some 0]) :=
  C29_small (K := ℝ) .release .pdata (fun t => t * t) 3 0 (by norm_num) (by norm_num)
    [.setup 0, .get 0, .getBuf 1 0, .get 1, .getBuf 2 0, .getBuf 0 0] (by simp [ValidReqs])

/-- Requests whose look-ahead reads never go back within one buffer: `last` holds the latest index read from
each buffer since it was set up. -/
def ForwardReqs (n : ℕ) : List ℕ → List ℕ → List Req → Prop
  | _, _, [] => True
  | names, last, .get t :: rs => t < n ∧ ForwardReqs n names last rs
  | names, last, .setup nm :: rs =>
    if nm ∈ names then ForwardReqs n names (last.set (names.findIdx (· == nm)) 0) rs
    else ForwardReqs n (names ++ [nm]) (last ++ [0]) rs
  | names, last, .getBuf t id :: rs =>
    t < n ∧ (∃ l, last[id]? = some l ∧ l ≤ t) ∧ ForwardReqs n names (last.set id t) rs

/-- Each extra buffer is a window that starts no later than the last index read from it. -/
def Dm.Ahead (d : Dm T) (last : List ℕ) : Prop :=
  d.kind = .tdata ∧ last.length = d.extra.length ∧
    ∀ (i : ℕ) (b : Buf T) (l : ℕ), d.extra[i]? = some b → last[i]? = some l → b.Good d.file d.n ∧ b.lo ≤ l

theorem Dm.getBuf_ahead (p : Profile) (d : Dm T) (last : List ℕ) (hd : d.Inv) (ha : d.Ahead last) (t id l : ℕ)
    (ht : t < d.n) (hl : last[id]? = some l) (hlt : l ≤ t) :
    ∃ b, d.getBuf p t id = .ok ({ d with extra := d.extra.set id b }, d.file t) ∧ b.Good d.file d.n ∧ b.lo ≤ t := by
  obtain ⟨hg, _, hn⟩ := hd
  obtain ⟨hk, hlen, hall⟩ := ha
  have hid : id < d.extra.length := by
    rw [← hlen]; by_contra hc
    rw [List.getElem?_eq_none (by omega)] at hl; cases hl
  obtain ⟨hb, hlo⟩ := hall id d.extra[id] l (List.getElem?_eq_getElem hid) hl
  have hb0 := hb
  obtain ⟨g1, g2, g3, g4, g5⟩ := hb0
  have s1 : ∃ b1, d.bufStep1 p d.extra[id] t (d.extra[id].hi - 1) = .ok b1 ∧ b1.Good d.file d.n ∧ b1.lo ≤ t ∧ t < b1.hi := by
    unfold Dm.bufStep1
    have hlen : d.bufLen d.extra[id] = d.extra[id].size := by unfold Dm.bufLen; rw [hk]
    by_cases hc : t > d.extra[id].hi - 1
    · rw [if_pos hc, hlen, uadd_ok p (by omega), run_bind_ok]
      obtain ⟨b, e, hb, e1, e2⟩ := Buf.load_good p d.kind d.file d.n d.extra[id] t (t + d.extra[id].size)
        (by omega) ht (by omega)
      exact ⟨b, e, hb, by omega, by omega⟩
    · rw [if_neg hc, if_neg (by omega)]
      exact ⟨_, rfl, hb, by omega, by omega⟩
  obtain ⟨b1, e1, hb1, h11, h12⟩ := s1
  have hb10 := hb1
  obtain ⟨g1', g2', g3', g4', g5'⟩ := hb10
  have s2 : ∃ b2, d.bufStep2 p b1 t = .ok b2 ∧ b2.Good d.file d.n ∧ b2.lo ≤ t ∧ t < b2.hi := by
    unfold Dm.bufStep2
    have hlen : d.bufLen b1 = b1.size := by unfold Dm.bufLen; rw [hk]
    rw [hk]
    dsimp only
    by_cases hc : t < d.main.lo
    · rw [if_pos hc, hlen, uadd_ok p (by omega), run_bind_ok]
      obtain ⟨b, e, hb, e1, e2⟩ := Buf.load_good p .tdata d.file d.n b1 t (t + b1.size) (by omega) ht (by omega)
      exact ⟨b, e, hb, by omega, by omega⟩
    · rw [if_neg hc]; exact ⟨_, rfl, hb1, h11, h12⟩
  obtain ⟨b2, e2, hb2, h21, h22⟩ := s2
  have s3 : d.bufRead b2 (t - b2.lo) = .ok (d.file t) := by
    unfold Dm.bufRead; rw [hk]; exact at_good hb2 h21 h22
  refine ⟨b2, ?_, hb2, h21⟩
  unfold Dm.getBuf
  rw [List.getElem?_eq_getElem hid]
  dsimp only
  rw [usub_ok p (by omega) (by omega), run_bind_ok, e1, run_bind_ok, e2, run_bind_ok,
    usub_ok p (by omega) (by omega), run_bind_ok, s3, run_bind_ok]
  rfl

/-- **C29 (timestep-based manager, forward look-ahead).** For a dataset of any size up to `2^50` timesteps: every
history in which the look-ahead reads of each buffer never go backwards (the pattern the library's own analyses
follow), mixed with arbitrary `get_timestep` and `setup_buffer` requests, runs without panic and every read
returns the timestep stored under its index.
Missing for the full property: backward look-ahead reads (`C29_tdata_false`) and the particle-based manager beyond
20000 timesteps (`C29_pdata_false`), for which the property does not hold. -/
theorem C29_tdata_forward_partial [LawfulArith K] (p : Profile) (file : ℕ → T) (n : ℕ) (dflt : T)
    (hn : 1 ≤ n) (hn' : n ≤ 2 ^ 50) (reqs : List Req) (hv : ForwardReqs n [] [] reqs) :
    ∃ d d', Dm.new p .tdata file n dflt = .ok d ∧ d.serve K p dflt reqs = .ok (d', answers file reqs) := by
  obtain ⟨d, e, hinv, hf, hdn, hk, hex, hnm, hlo, hhi⟩ := Dm.new_ok p .tdata file n dflt hn hn'
  suffices H : ∀ (reqs : List Req) (d0 : Dm T) (last : List ℕ), d0.Inv → d0.Ahead last → d0.file = file → d0.n = n →
      ForwardReqs n d0.names last reqs → ∃ d', d0.serve K p dflt reqs = .ok (d', answers file reqs) by
    obtain ⟨d', h⟩ := H reqs d [] hinv ⟨hk, by rw [hex]; rfl, by rw [hex]; intro i b l hb; simp at hb⟩ hf hdn
      (by rw [hnm]; exact hv)
    exact ⟨d, d', e, h⟩
  clear hv
  intro reqs
  induction reqs with
  | nil => intro d0 _ _ _ _ _ _; exact ⟨d0, rfl⟩
  | cons r rs ih =>
    intro d0 last hi hw hf0 hn0 hv
    obtain ⟨w1, w2, w3⟩ := id hw
    cases r with
    | get t =>
      obtain ⟨b, e, hb, _⟩ := Dm.get_ok (K := K) p d0 hi t (by rw [hn0]; exact hv.1)
      obtain ⟨d', h⟩ := ih { d0 with main := b } last ⟨hb, hi.2⟩ ⟨w1, w2, w3⟩ hf0 hn0 hv.2
      refine ⟨d', ?_⟩
      simp only [Dm.serve, Dm.step, e, run_bind_ok, run_pure]
      rw [h, run_bind_ok, hf0]; rfl
    | setup nm =>
      obtain ⟨b, hb, e1, e2, e⟩ := Dm.setup_extra p dflt d0 hi nm
      have hI := Dm.setup_inv p dflt nm hi e
      have key : ∃ d', (if nm ∈ d0.names then { d0 with extra := d0.extra.set (d0.names.findIdx (· == nm)) b }
        else { d0 with extra := d0.extra ++ [b], names := d0.names ++ [nm] } : Dm T).serve K p dflt rs
          = .ok (d', answers file rs) := by
        by_cases hm : nm ∈ d0.names
        · rw [if_pos hm] at hI ⊢
          have hv' := hv
          simp only [ForwardReqs, if_pos hm] at hv'
          refine ih _ _ hI ⟨w1, ?_, ?_⟩ hf0 hn0 hv'
          · change _ = (d0.extra.set _ _).length
            rw [List.length_set, List.length_set, w2]
          · intro i b' l hb' hl'
            change (d0.extra.set _ _)[i]? = _ at hb'
            rw [List.getElem?_set] at hb' hl'
            split_ifs at hb' hl' with k1 k2
            · cases hb'; cases hl'; exact ⟨hb, by omega⟩
            · exact w3 i b' l hb' hl'
        · rw [if_neg hm] at hI ⊢
          have hv' := hv
          simp only [ForwardReqs, if_neg hm] at hv'
          refine ih _ _ hI ⟨w1, ?_, ?_⟩ hf0 hn0 hv'
          · change _ = (d0.extra ++ [b]).length
            simp [w2]
          · intro i b' l hb' hl'
            change (d0.extra ++ [b])[i]? = _ at hb'
            rcases Nat.lt_or_ge i d0.extra.length with hlt | hge
            · rw [List.getElem?_append_left hlt] at hb'
              rw [List.getElem?_append_left (by omega)] at hl'
              exact w3 i b' l hb' hl'
            · rw [List.getElem?_append_right hge, List.getElem?_singleton] at hb'
              rw [List.getElem?_append_right (by omega), List.getElem?_singleton] at hl'
              split_ifs at hb' hl'
              cases hb'; cases hl'; exact ⟨hb, by omega⟩
      obtain ⟨d', h⟩ := key
      refine ⟨d', ?_⟩
      simp only [Dm.serve, Dm.step, e, run_bind_ok, run_pure]
      rw [h, run_bind_ok]; rfl
    | getBuf t id =>
      obtain ⟨hvt, ⟨l, hl, hlt⟩, hv'⟩ := hv
      obtain ⟨b, e, hb, hbl⟩ := Dm.getBuf_ahead p d0 last hi hw t id l (by rw [hn0]; exact hvt) hl hlt
      have hI := Dm.getBuf_inv p t id hi e
      obtain ⟨d', h⟩ := ih _ (last.set id t) hI ⟨w1, by
          change _ = (d0.extra.set _ _).length
          rw [List.length_set, List.length_set, w2], by
          intro i b' l' hb' hl'
          change (d0.extra.set _ _)[i]? = _ at hb'
          rw [List.getElem?_set] at hb' hl'
          split_ifs at hb' hl' with k1 k2
          · cases hb'; cases hl'; exact ⟨hb, hbl⟩
          · exact w3 i b' l' hb' hl'⟩ hf0 hn0 hv'
      refine ⟨d', ?_⟩
      simp only [Dm.serve, Dm.step, e, run_bind_ok, run_pure]
      rw [h, run_bind_ok, hf0]; rfl

/-- Witness: a forward history over 50000 timesteps that leaves the first window. -/
example : ∃ d d', Dm.new .release .tdata (fun t => t * t) 50000 0 = .ok d ∧
    d.serve ℝ .release 0 [.setup 0, .get 49999, .getBuf 19999 0, .getBuf 20000 0, .get 0, .setup 0, .getBuf 1 0]
      = .ok (d', [none, some (49999 * 49999), some (19999 * 19999), some (20000 * 20000), some 0, none, some 1]) :=
  C29_tdata_forward_partial (K := ℝ) .release (fun t => t * t) 50000 0 (by norm_num) (by norm_num)
    [.setup 0, .get 49999, .getBuf 19999 0, .getBuf 20000 0, .get 0, .setup 0, .getBuf 1 0] (by simp [ForwardReqs])

/-- The buffers of a manager just after `new` and `setup_buffer`. -/
theorem new_setup (p : Profile) (kind : Kind) (file : ℕ → T) (n : ℕ) (dflt : T) (hn : 1 ≤ n) (hn' : n ≤ 2 ^ 50) :
    ∃ d d1 b, Dm.new p kind file n dflt = .ok d ∧ d.setup p dflt 0 = .ok d1 ∧ d1.Inv ∧ d1.file = file ∧ d1.n = n ∧
      d1.kind = kind ∧ d1.extra = [b] ∧ b.Good file n ∧ b.lo = 0 ∧ b.hi = min BUFFERSIZE n ∧
      d1.main.lo = 0 ∧ d1.main.hi = min BUFFERSIZE n := by
  obtain ⟨d, e, hinv, hf, hdn, hk, hex, hnm, hlo, hhi⟩ := Dm.new_ok p kind file n dflt hn hn'
  obtain ⟨b, hb, e1, e2, e'⟩ := Dm.setup_extra p dflt d hinv 0
  rw [hnm, if_neg (by simp)] at e'
  refine ⟨d, _, b, e, e', Dm.setup_inv p dflt 0 hinv e', hf, hdn, hk, by change d.extra ++ [b] = [b]; rw [hex]; rfl, by rw [← hf, ← hdn]; exact hb, e1,
    by rw [← hdn]; exact e2, hlo, hhi⟩

/-- **C29 fails for the particle-based manager.** With more than 20000 timesteps, reading timestep 20000 through a
freshly set up look-ahead buffer returns timestep 0 instead, in both profiles and for every file. -/
theorem C29_pdata_false [LawfulArith K] (p : Profile) (file : ℕ → T) (n : ℕ) (dflt : T) (hn : 20000 < n)
    (hn' : n ≤ 2 ^ 50) :
    ∃ d d', Dm.new p .pdata file n dflt = .ok d ∧
      d.serve K p dflt [.setup 0, .getBuf 20000 0] = .ok (d', [none, some (file 0)]) := by
  have hB : BUFFERSIZE = 20000 := rfl
  obtain ⟨d, d1, b, e, e1, hinv, hf, hdn, hk, hex, hb, hb1, hb2, hm1, hm2⟩ := new_setup p .pdata file n dflt (by omega) hn'
  obtain ⟨hg, _, _⟩ := hinv
  obtain ⟨g1, g2, g3, g4, g5⟩ := id hg
  obtain ⟨b', e2, hb', e3, e4⟩ := Buf.load_good p .pdata file n b 20000 (20000 + d1.main.size)
    (by omega) (by omega) (by omega)
  have e5 : d1.getBuf p 20000 0 = .ok ({ d1 with extra := [b'] }, file 0) := by
    unfold Dm.getBuf
    rw [hex]
    simp only [List.getElem?_cons_zero]
    rw [usub_ok p (by omega) (by omega), run_bind_ok]
    have s1 : d1.bufStep1 p b 20000 (b.hi - 1) = .ok b' := by
      unfold Dm.bufStep1 Dm.bufLen
      rw [if_pos (by omega), hk, hf, hdn]
      dsimp only
      rw [uadd_ok p (by omega), run_bind_ok]; exact e2
    have s2 : d1.bufStep2 p b' 20000 = .ok b' := by
      unfold Dm.bufStep2
      rw [hk]; dsimp only
      rw [if_neg (by omega)]
    have s3 : d1.bufRead b' (20000 - b'.lo) = .ok (file 0) := by
      unfold Dm.bufRead
      rw [hk, e3]
      have := at_good hg (t := 0) (by omega) (by omega)
      rw [hm1, hf] at this
      exact this
    rw [s1, run_bind_ok, s2, run_bind_ok, usub_ok p (by omega) (by omega), run_bind_ok, s3, run_bind_ok]
    rfl
  refine ⟨d, { d1 with extra := [b'] }, e, ?_⟩
  simp only [Dm.serve, Dm.step, e1, e5, run_bind_ok, run_pure]

/-- **C29 fails for backward look-ahead reads of the timestep-based manager.** With more than 40000 timesteps,
reading timestep 20000 and then timestep 0 through a look-ahead buffer panics, in both profiles. -/
theorem C29_tdata_false [LawfulArith K] (p : Profile) (file : ℕ → T) (n : ℕ) (dflt : T) (hn : 40000 < n)
    (hn' : n ≤ 2 ^ 50) :
    ∃ d e, Dm.new p .tdata file n dflt = .ok d ∧
      d.serve K p dflt [.setup 0, .getBuf 20000 0, .getBuf 0 0] = .error e := by
  have hB : BUFFERSIZE = 20000 := rfl
  obtain ⟨d, d1, b, e, e1, hinv, hf, hdn, hk, hex, hb, hb1, hb2, hm1, hm2⟩ := new_setup p .tdata file n dflt (by omega) hn'
  obtain ⟨hg, _, _⟩ := hinv
  obtain ⟨g1, g2, g3, g4, g5⟩ := id hb
  obtain ⟨b', e2, hb', e3, e4⟩ := Buf.load_good p .tdata file n b 20000 (20000 + b.size)
    (by omega) (by omega) (by omega)
  have e5 : d1.getBuf p 20000 0 = .ok ({ d1 with extra := [b'] }, file 20000) := by
    unfold Dm.getBuf
    rw [hex]
    simp only [List.getElem?_cons_zero]
    rw [usub_ok p (by omega) (by omega), run_bind_ok]
    have s1 : d1.bufStep1 p b 20000 (b.hi - 1) = .ok b' := by
      unfold Dm.bufStep1 Dm.bufLen
      rw [if_pos (by omega), hk, hf, hdn]
      dsimp only
      rw [uadd_ok p (by omega), run_bind_ok]; exact e2
    have s2 : d1.bufStep2 p b' 20000 = .ok b' := by
      unfold Dm.bufStep2
      rw [hk]; dsimp only
      rw [if_neg (by omega)]
    have s3 : d1.bufRead b' (20000 - b'.lo) = .ok (file 20000) := by
      unfold Dm.bufRead
      rw [hk]
      exact at_good hb' (by omega) (by omega)
    rw [s1, run_bind_ok, s2, run_bind_ok, usub_ok p (by omega) (by omega), run_bind_ok, s3, run_bind_ok]
    rfl
  have e6 : ∃ er, ({ d1 with extra := [b'] } : Dm T).getBuf p 0 0 = .error er := by
    unfold Dm.getBuf
    simp only [List.getElem?_cons_zero]
    rw [usub_ok p (by omega) (by omega), run_bind_ok]
    have s1 : ({ d1 with extra := [b'] } : Dm T).bufStep1 p b' 0 (b'.hi - 1) = .ok b' := by
      unfold Dm.bufStep1
      dsimp only
      rw [if_neg (by omega), if_neg (by omega)]
    have s2 : ({ d1 with extra := [b'] } : Dm T).bufStep2 p b' 0 = .ok b' := by
      unfold Dm.bufStep2
      dsimp only
      rw [hk]; dsimp only
      rw [if_neg (by omega)]
    rw [s1, run_bind_ok, s2, run_bind_ok, e3]
    cases p with
    | debug => exact ⟨.overflow, rfl⟩
    | release =>
      refine ⟨.index, ?_⟩
      have : usub .release 0 20000 = .ok (2 ^ 64 - 20000) := by unfold usub usizeMod; norm_num
      rw [this, run_bind_ok]
      have : ({ d1 with extra := [b'] } : Dm T).bufRead b' (2 ^ 64 - 20000) = .error .index := by
        unfold Dm.bufRead
        dsimp only
        rw [hk]; dsimp only
        unfold Buf.at'
        rw [if_neg (by rw [hB]; norm_num)]
      rw [this]; rfl
  obtain ⟨er, e6⟩ := e6
  refine ⟨d, er, e, ?_⟩
  simp only [Dm.serve, Dm.step, e1, e5, e6, run_bind_ok, run_pure]
  rfl

end Up4
