import Verif.Model.Failure
import Verif.Props.Session

set_option linter.unusedSectionVars false

/-! # C134: a call that raises does no harm -/

namespace Up4
open F
open Selector (at')

variable {K : Type} [Field K] [LinearOrder K] [IsStrictOrderedRing K] [FloorRing K] [Arith K]

section
variable {T : Type} {dflt : T} {kind : Kind} {file : ℕ → T} {n : ℕ}

/-! ### The fields after a method that returned are the ones it returned -/

theorem Buf.after_ok {p : Profile} {b b' : Buf T} {lo hi : ℕ} (h : b.load p kind file n lo hi = .ok b') : b.after p kind file n lo hi = b' := by
  unfold Buf.load at h
  unfold Buf.after
  dsimp only at h ⊢
  generalize (if hi ≥ n then n else hi) = m at h ⊢
  by_cases h1 : lo ≤ m
  · rw [if_pos h1] at h ⊢
    by_cases h2 : m - lo ≤ BUFFERSIZE
    · rw [if_pos h2] at h ⊢
      exact Except.ok.inj h
    · rw [if_neg h2] at h; cases h
  · rw [if_neg h1] at h ⊢
    cases p <;> cases kind <;> first | (cases h; done) | exact Except.ok.inj h

theorem Dm.getAfter_ok {p : Profile} {d d' : Dm T} {t : ℕ} {x : T} (h : d.get K p t = .ok (d', x)) : d.getAfter K p t = d' := by
  unfold Dm.get at h
  obtain ⟨last, e1, h⟩ := run_bind_inv h
  obtain ⟨b, e2, h⟩ := run_bind_inv h
  obtain ⟨i, _, h⟩ := run_bind_inv h
  obtain ⟨y, _, h⟩ := run_bind_inv h
  cases h
  unfold Dm.getAfter
  rw [e1]
  dsimp only
  unfold Dm.refresh at e2
  by_cases h1 : t > last
  · rw [if_pos h1] at e2 ⊢
    obtain ⟨hi, e3, e2⟩ := run_bind_inv e2
    rw [e3]
    dsimp only
    rw [Buf.after_ok e2]
  · rw [if_neg h1] at e2 ⊢
    by_cases h2 : t < d.main.lo
    · rw [if_pos h2] at e2 ⊢
      rw [Buf.after_ok e2]
    · rw [if_neg h2] at e2 ⊢
      cases e2
      rfl

theorem Dm.setupAfter_ok {p : Profile} {d d' : Dm T} {name : ℕ} (h : d.setup p dflt name = .ok d') : d.setupAfter p dflt name = d' := by
  unfold Dm.setup at h
  unfold Dm.setupAfter
  by_cases h1 : d.names.contains name = true
  · rw [if_pos h1] at h ⊢
    cases e : d.extra[d.names.findIdx (· == name)]? with
    | none => simp only [e] at h; cases h
    | some b =>
      simp only [e] at h
      obtain ⟨b', e2, h⟩ := run_bind_inv h
      cases h
      dsimp only
      rw [Buf.after_ok e2]
  · rw [if_neg h1] at h ⊢
    obtain ⟨b', e2, h⟩ := run_bind_inv h
    cases h
    rw [Buf.after_ok e2]

theorem Dm.getBufAfter_ok {p : Profile} {d d' : Dm T} {t id : ℕ} {x : T} (h : d.getBuf p t id = .ok (d', x)) : d.getBufAfter p t id = d' := by
  unfold Dm.getBuf at h
  unfold Dm.getBufAfter
  cases e : d.extra[id]? with
  | none => rw [e] at h; cases h
  | some b =>
    rw [e] at h
    obtain ⟨last, e1, h⟩ := run_bind_inv h
    obtain ⟨b1, e2, h⟩ := run_bind_inv h
    obtain ⟨b2, e3, h⟩ := run_bind_inv h
    obtain ⟨i, _, h⟩ := run_bind_inv h
    obtain ⟨y, _, h⟩ := run_bind_inv h
    cases h
    dsimp only
    rw [e1]
    dsimp only
    rw [e2]
    dsimp only
    have : d.step2After p b1 t = b2 := by
      unfold Dm.bufStep2 at e3
      unfold Dm.step2After
      split_ifs at e3 ⊢ with h1 h2
      · obtain ⟨hi, e4, e3⟩ := run_bind_inv e3
        rw [e4]
        exact Buf.after_ok e3
      · exact absurd h1 h2
      · rename_i h2
        exact absurd h2 h1
      · cases e3
        rfl
    rw [this]

/-! ### The state between calls -/

theorem Buf.after_padded (p : Profile) {b : Buf T} {lo hi : ℕ} (h : b.Padded dflt n) : (b.after p kind file n lo hi).Padded dflt n := by
  unfold Buf.after
  dsimp only
  have em : (if hi ≥ n then n else hi) = min hi n := by split_ifs <;> omega
  rw [em]
  by_cases h1 : lo ≤ min hi n
  · rw [if_pos h1]
    by_cases h2 : min hi n - lo ≤ BUFFERSIZE
    · rw [if_pos h2]
      intro i hi'
      change (if i < min hi n - lo then file (lo + i) else b.data i) = dflt
      rw [if_neg (by omega), h i hi']
    · rw [if_neg h2]
      intro i hi'
      change (if i < BUFFERSIZE then file (lo + i) else b.data i) = dflt
      rw [if_neg (by omega), h i hi']
  · rw [if_neg h1]
    generalize (min hi n + usizeMod - lo) % usizeMod = z
    cases p <;> cases kind <;> exact fun i hi' => h i hi'

theorem Dm.getAfter_steady [LawfulArith K] (p : Profile) {d : Dm T} (h : d.Steady dflt kind file n) {t : ℕ} (ht : t < n) :
    (d.getAfter K p t).Steady dflt kind file n := by
  obtain ⟨b, e, hb, _⟩ := Dm.get_steady (K := K) p d h t ht
  rw [Dm.getAfter_ok e]
  exact hb

theorem Dm.setupAfter_steady (p : Profile) {d : Dm T} (h : d.Steady dflt kind file n) : (d.setupAfter p dflt 0).Steady dflt kind file n := by
  rw [Dm.setupAfter_ok (Dm.setup_steady p d h)]
  exact Dm.setup_steady' h

theorem Dm.step1_padded (p : Profile) {d : Dm T} {b : Buf T} (hb : b.Padded dflt d.n) (t last : ℕ) : (d.step1After p b t last).Padded dflt d.n := by
  unfold Dm.step1After
  split_ifs
  · cases uadd p t (d.bufLen b) with
    | error _ => exact hb
    | ok hi => exact Buf.after_padded p hb
  · exact Buf.after_padded p hb
  · exact hb

theorem Dm.step1_eq {p : Profile} {d : Dm T} {b b' : Buf T} {t last : ℕ} (h : d.bufStep1 p b t last = .ok b') : d.step1After p b t last = b' := by
  unfold Dm.bufStep1 at h
  unfold Dm.step1After
  by_cases h1 : t > last
  · rw [if_pos h1] at h ⊢
    obtain ⟨hi, e, h⟩ := run_bind_inv h
    rw [e]
    exact Buf.after_ok h
  · rw [if_neg h1] at h ⊢
    by_cases h2 : b.hi = d.n ∧ t < b.lo
    · rw [if_pos h2] at h ⊢
      exact Buf.after_ok h
    · rw [if_neg h2] at h ⊢
      cases h
      rfl

theorem Dm.step2_padded (p : Profile) {d : Dm T} {b : Buf T} (hb : b.Padded dflt d.n) (t : ℕ) : (d.step2After p b t).Padded dflt d.n := by
  unfold Dm.step2After
  split_ifs
  · cases uadd p t (d.bufLen b) with
    | error _ => exact hb
    | ok hi => exact Buf.after_padded p hb
  · exact hb

theorem Dm.getBufAfter_steady (p : Profile) {d : Dm T} (h : d.Steady dflt kind file n) (t : ℕ) : (d.getBufAfter p t 0).Steady dflt kind file n := by
  unfold Dm.getBufAfter
  rcases h.extra with ⟨_, e2⟩ | ⟨e1, b, e2, hb⟩
  · rw [e2]; exact h
  · rw [e2]
    dsimp only [List.getElem?_cons_zero]
    have key : ∀ b' : Buf T, b'.Padded dflt n → ({ d with extra := [b].set 0 b' } : Dm T).Steady dflt kind file n := fun b' hb' =>
      ⟨h.kindEq, h.fileEq, h.num, h.small, h.good, h.pad, h.first, Or.inr ⟨e1, b', rfl, hb'⟩⟩
    have hb : b.Padded dflt d.n := by rw [h.num]; exact hb
    cases usub p b.hi 1 with
    | error _ => exact h
    | ok last =>
      dsimp only
      cases e : d.bufStep1 p b t last with
      | error _ => exact key _ (by rw [← h.num]; exact Dm.step1_padded p hb t last)
      | ok b1 =>
        have hb1 := Dm.step1_padded p hb t last
        rw [Dm.step1_eq e] at hb1
        exact key _ (by rw [← h.num]; exact Dm.step2_padded p hb1 t)

end

/-! ### Histories with calls that raised -/

/-- The managers an analysis can leave behind when it panics: it has read existing timesteps, set up the look-ahead buffer and read through it, any number of times in any order,
the last of these finished or not. -/
inductive Dm.Interrupted (p : Profile) (d : Dm (Timestep K)) : Dm (Timestep K) → Prop where
  | start : Interrupted p d d
  | read {e : Dm (Timestep K)} (t : ℕ) (ht : t < e.n) (h : Interrupted p d e) : Interrupted p d (e.getAfter K p t)
  | setup {e : Dm (Timestep K)} (h : Interrupted p d e) : Interrupted p d (e.setupAfter p Timestep.default 0)
  | ahead {e : Dm (Timestep K)} (t : ℕ) (h : Interrupted p d e) : Interrupted p d (e.getBufAfter p t 0)

/-- The objects a call can leave behind when it raises. `set_time` raises before it sets anything; `data[i]` makes one read; an analysis is interrupted anywhere. -/
inductive PyData.Raised (p : Profile) (s : PyData K) : Call K → PyData K → Prop where
  | setTime (a b : F K) : Raised p s (.setTime a b) s
  | item (i : ℤ) : Raised p s (.item i) { s with dm := s.dm.getAfter K p (asUsize (pyIndex s.dm.n i)) }
  | analysis (c : Call K) (h1 : c.setsTime = false) (h2 : ∀ i, c ≠ .item i) (d : Dm (Timestep K)) (h : s.dm.Interrupted p d) : Raised p s c { s with dm := d }

/-- A history of calls on an object: those that returned and those that raised. -/
inductive PyData.History (p : Profile) (s : PyData K) : List (Call K × Bool) → PyData K → Prop where
  | start : History p s [] s
  | returned {cs : List (Call K × Bool)} {t t' : PyData K} (c : Call K) (a : Answer K) (h : History p s cs t) (hc : t.call p c = .ok (t', a)) :
      History p s (cs ++ [(c, true)]) t'
  | raised {cs : List (Call K × Bool)} {t t' : PyData K} (c : Call K) (e : Panic) (h : History p s cs t) (hc : t.call p c = .error e) (ht : t.Raised p c t') :
      History p s (cs ++ [(c, false)]) t'

/-- The calls of a history that returned. -/
def completed (cs : List (Call K × Bool)) : List (Call K) := (cs.filter (·.2)).map (·.1)

theorem interrupted_steady [LawfulArith K] {p : Profile} {kind : Kind} {file : ℕ → Timestep K} {n : ℕ} {d e : Dm (Timestep K)}
    (h : d.Steady Timestep.default kind file n) (hi : d.Interrupted p e) : e.Steady Timestep.default kind file n := by
  induction hi with
  | start => exact h
  | read t ht _ ih => exact Dm.getAfter_steady p ih (by rw [← ih.num]; exact ht)
  | setup _ ih => exact Dm.setupAfter_steady p ih
  | ahead t _ ih => exact Dm.getBufAfter_steady p ih t

/-- Calls that are tolerated when they raise: those that fit the dataset; in a debug build all but `data[n]`, with `n` the number of timesteps (C75). -/
def Tolerated (p : Profile) (n : ℕ) (c : Call K) : Prop := c.Fits n ∨ (p = .debug ∧ c ≠ .item n)

theorem usize_index (n : ℕ) (hn : n ≤ 2 ^ 50) (i : ℤ) (h63 : -2 ^ 63 ≤ i ∧ i < 2 ^ 63) (hi : ¬ (-(n : ℤ) ≤ i ∧ i < n)) (hne : i ≠ n) : n < asUsize (pyIndex n i) := by
  unfold asUsize pyIndex usizeMod
  by_cases h : i < 0
  · rw [if_pos h]
    have h1 : (n : ℤ) + i < 0 := by omega
    have : ((n : ℤ) + i) % ((2 ^ 64 : ℕ) : ℤ) = (n : ℤ) + i + 2 ^ 64 := by
      rw [← Int.add_emod_right, Int.emod_eq_of_lt] <;> push_cast <;> omega
    rw [this]
    omega
  · rw [if_neg h]
    have : i % ((2 ^ 64 : ℕ) : ℤ) = i := Int.emod_eq_of_lt (by omega) (by push_cast; omega)
    rw [this]
    omega

/-- In a debug build a read behind the end leaves the manager as it was. -/
theorem getAfter_debug {T : Type} {dflt : T} {kind : Kind} {file : ℕ → T} {n : ℕ} {d : Dm T} (h : d.Steady dflt kind file n) (t : ℕ) (ht : n < t) :
    d.getAfter K .debug t = d := by
  have hg := h.good
  have hl : usub .debug d.main.hi 1 = .ok (d.main.hi - 1) := usub_ok _ (by have := hg.1; omega) (by have := hg.2.1; have := h.small; omega)
  unfold Dm.getAfter
  rw [hl]
  dsimp only
  rw [if_pos (by have := hg.2.1; omega)]
  cases uadd .debug t d.main.size with
  | error _ => rfl
  | ok hi =>
    dsimp only
    have : d.main.after .debug d.kind d.file d.n t hi = d.main := by
      unfold Buf.after
      dsimp only
      rw [h.num, if_neg (by split_ifs <;> omega)]
    rw [this]

/-- The indices Python can pass: 64-bit integers. -/
def Call.Indexed : Call K → Prop
  | .item i => -2 ^ 63 ≤ i ∧ i < 2 ^ 63
  | _ => True

theorem raised_steady [LawfulArith K] {p : Profile} {kind : Kind} {f : OnDisk K} {s t : PyData K} {c : Call K}
    (h : s.dm.Steady Timestep.default kind f.file f.n) (hc : Tolerated p f.n c) (hx : c.Indexed) (hr : s.Raised p c t) :
    t.dm.Steady Timestep.default kind f.file f.n ∧ t.st = s.st ∧ t.maxTime = s.maxTime ∧ t.sel = s.sel := by
  cases hr with
  | setTime a b => exact ⟨h, rfl, rfl, rfl⟩
  | item i =>
    refine ⟨?_, rfl, rfl, rfl⟩
    dsimp only
    rw [h.num]
    by_cases hi : -(f.n : ℤ) ≤ i ∧ i < f.n
    · obtain ⟨e1, e2⟩ := asUsize_index f.n h.small i hi.1 hi.2
      rw [e1]
      exact Dm.getAfter_steady p h e2
    · rcases hc with hc | ⟨hp, hne⟩
      · exact absurd hc hi
      · subst hp
        rw [getAfter_debug h _ (usize_index f.n h.small i hx hi (fun e => hne (by rw [e])))]
        exact h
  | analysis c h1 h2 d hd => exact ⟨interrupted_steady h hd, rfl, rfl, rfl⟩

/-- The state after a history: on the same file, with the settings of the last `set_time` that returned. -/
theorem history_settings [LawfulArith K] (p : Profile) (kind : Kind) (f : OnDisk K) (h1 : 1 ≤ f.n) {s : PyData K} (h : PyData.Alike kind f s s)
    (cs : List (Call K × Bool)) (t : PyData K) (hist : s.History p cs t)
    (hc : ∀ c ∈ cs, c.1.Indexed ∧ if c.2 then c.1.Fits f.n else Tolerated p f.n c.1) :
    (∃ t' as', s.calls p (settings (completed cs)) = .ok (t', as') ∧ PyData.Alike kind f t t') ∧ (∀ a b, t.sel.setTime a b = s.sel.setTime a b) := by
  induction hist with
  | start => exact ⟨⟨s, [], rfl, h⟩, fun _ _ => rfl⟩
  | @returned cs r t c a _ e1 ih =>
    obtain ⟨⟨t', as', g1, g2⟩, g3⟩ := ih (fun c hc' => hc c (by simp [hc']))
    have hfit : c.Fits f.n := (hc (c, true) (by simp)).2
    have hcomp : completed (cs ++ [(c, true)]) = completed cs ++ [c] := by simp [completed, List.filter_append]
    have self : PyData.Alike kind f r r := ⟨g2.steady, g2.steady, ⟨g2.st.1, g2.st.1⟩, ⟨g2.maxTime.1, g2.maxTime.1⟩, rfl⟩
    rcases call_alike p kind f h1 self c hfit with ⟨_, x, _⟩ | ⟨t1, _, a', x, x', y, z⟩
    · rw [e1] at x; cases x
    · rw [e1] at x; cases x
      rw [hcomp, settings_snoc]
      cases hs : c.setsTime with
      | false =>
        rw [if_neg (by simp)]
        have z := z hs
        exact ⟨⟨t', as', g1, ⟨y.steady, g2.steady', ⟨y.st.1, g2.st.2⟩, ⟨y.maxTime.1, g2.maxTime.2⟩, z.trans g2.sel⟩⟩, fun a b => by rw [z]; exact g3 a b⟩
      | true =>
        rw [if_pos rfl]
        cases c <;> try (cases hs)
        rename_i a0 b0
        change (r.setTime a0 b0 >>= fun s => pure (s, Answer.none)) = _ at e1
        unfold PyData.setTime at e1
        by_cases hm : r.maxTime < a0
        · rw [if_pos hm] at e1; cases e1
        · rw [if_neg hm] at e1
          cases e1
          refine ⟨⟨{ s with sel := s.sel.setTime a0 b0 }, [.none], ?_, ?_⟩, ?_⟩
          · change (PyData.setTime s a0 b0 >>= fun s => pure (s, Answer.none)) >>= _ = _
            unfold PyData.setTime
            rw [if_neg (by rw [h.maxTime.1, ← g2.maxTime.1]; exact hm)]
            rfl
          · exact ⟨y.steady, h.steady, ⟨y.st.1, h.st.1⟩, ⟨y.maxTime.1, h.maxTime.1⟩, g3 a0 b0⟩
          · intro a b
            exact g3 a b
  | @raised cs r t c e _ e1 hr ih =>
    obtain ⟨⟨t', as', g1, g2⟩, g3⟩ := ih (fun c hc' => hc c (by simp [hc']))
    obtain ⟨hx, hfit⟩ := hc (c, false) (by simp)
    have hcomp : completed (cs ++ [(c, false)]) = completed cs := by simp [completed, List.filter_append]
    obtain ⟨k1, k2, k3, k4⟩ := raised_steady g2.steady hfit hx hr
    rw [hcomp]
    exact ⟨⟨t', as', g1, ⟨k1, g2.steady', ⟨k2.trans g2.st.1, g2.st.2⟩, ⟨k3.trans g2.maxTime.1, g2.maxTime.2⟩, k4.trans g2.sel⟩⟩, fun a b => by rw [k4]; exact g3 a b⟩

/-- **C134.** Calls that raise do no harm. Open a file and make calls, some of which return and some of which raise (item indices of the calls that return within range; of those that
raise, too, in a release build). The answer to one more call, value or panic, is the one a freshly opened object gives on which only the last `set_time` that returned has been
repeated. -/
theorem C134_harmless_partial [LawfulArith K] (p : Profile) (f : OnDisk K) (h1 : 1 ≤ f.n) (h2 : f.n ≤ 2 ^ 50) (s t : PyData K) (hs : f.load p = .ok s)
    (cs : List (Call K × Bool)) (hist : s.History p cs t)
    (hcs : ∀ c ∈ cs, c.1.Indexed ∧ if c.2 then c.1.Fits f.n else Tolerated p f.n c.1) (c : Call K) (hc : c.Fits f.n) :
    (do let r ← t.call p c; pure (some r.2)) = f.answer p (settings (completed cs) ++ [c]) := by
  rw [answer_snoc]
  unfold OnDisk.session
  rcases load_alike p f h1 h2 with ⟨e, he⟩ | ⟨kind, s', he, hs'⟩
  · rw [he] at hs; cases hs
  · rw [hs] at he; cases he
    rw [hs, run_bind_ok]
    obtain ⟨⟨t', as', g1, g2⟩, _⟩ := history_settings p kind f h1 hs' cs t hist hcs
    rw [g1, run_bind_ok]
    rcases call_alike p kind f h1 g2 c hc with ⟨e, x, x'⟩ | ⟨_, _, a, x, x', _, _⟩
    · dsimp only; rw [x, x']
    · dsimp only; rw [x, x']; rfl

/-! ### Reads of timesteps that do not exist, in a particle-based file of at most 20000 timesteps -/

/-- A manager that holds all timesteps, whatever its size field says; or that has just been asked for the one behind the last. -/
structure Dm.Loaded {T : Type} (file : ℕ → T) (n : ℕ) (d : Dm T) : Prop where
  kindEq : d.kind = .pdata
  fileEq : d.file = file
  num : d.n = n
  data : ∀ i, i < n → d.main.data i = file i
  lo : d.main.lo = 0 ∨ d.main.lo = n
  hi : d.main.hi = n

theorem Buf.after_behind {T : Type} (p : Profile) (file : ℕ → T) (n : ℕ) (b : Buf T) (lo hi : ℕ) (h : ¬ lo ≤ min hi n) :
    ∃ z, b.after p .pdata file n lo hi = ⟨b.data, b.lo, b.hi, z⟩ := by
  unfold Buf.after
  dsimp only
  have em : (if hi ≥ n then n else hi) = min hi n := by split_ifs <;> omega
  rw [em, if_neg h]
  generalize (min hi n + usizeMod - lo) % usizeMod = z
  obtain ⟨data, l, u, sz⟩ := b
  cases p
  · exact ⟨sz, rfl⟩
  · exact ⟨z, rfl⟩

theorem getAfter_whole [LawfulArith K] {T : Type} (p : Profile) {file : ℕ → T} {n : ℕ} (h1 : 1 ≤ n) (h2 : n ≤ BUFFERSIZE) {d : Dm T} (h : d.Loaded file n) (t : ℕ) :
    (d.getAfter K p t).Loaded file n := by
  have hB : BUFFERSIZE = 20000 := rfl
  have hl : usub p d.main.hi 1 = .ok (n - 1) := by rw [h.hi]; exact usub_ok _ h1 (by omega)
  unfold Dm.getAfter
  rw [hl]
  dsimp only
  by_cases ht : t > n - 1
  · rw [if_pos ht]
    cases uadd p t d.main.size with
    | error _ => exact h
    | ok hi =>
      dsimp only
      rw [h.kindEq, h.fileEq, h.num]
      by_cases hle : t ≤ min hi n
      · have e1 : t = n := by omega
        have e2 : min hi n = n := by omega
        unfold Buf.after
        dsimp only
        have em : (if hi ≥ n then n else hi) = n := by split_ifs <;> omega
        rw [em, if_pos (by omega), if_pos (by omega), e1]
        refine ⟨rfl, rfl, rfl, fun i hi' => ?_, Or.inr rfl, rfl⟩
        change (if i < n - n then _ else d.main.data i) = _
        rw [if_neg (by omega), h.data i hi']
      · obtain ⟨z, e⟩ := Buf.after_behind p file n d.main t hi hle
        rw [e]
        exact ⟨rfl, rfl, rfl, h.data, h.lo, h.hi⟩
  · rw [if_neg ht]
    by_cases hc : t < d.main.lo
    · rw [if_pos hc, h.kindEq, h.fileEq, h.num, chunk_eq t (by omega)]
      have hq : t / BUFFERSIZE = 0 := Nat.div_eq_of_lt (by omega)
      rw [hq]
      unfold Buf.after
      dsimp only
      have em : (if (0 + 1) * BUFFERSIZE ≥ n then n else (0 + 1) * BUFFERSIZE) = n := by rw [if_pos (by omega)]
      rw [em, if_pos (by omega), if_pos (by omega)]
      refine ⟨rfl, rfl, rfl, fun i hi' => ?_, Or.inl (by simp), rfl⟩
      change (if i < n - 0 * BUFFERSIZE then file (0 * BUFFERSIZE + i) else d.main.data i) = _
      rw [if_pos (by omega), Nat.zero_mul, Nat.zero_add]
    · rw [if_neg hc]
      exact h

theorem get_whole [LawfulArith K] {T : Type} (p : Profile) {file : ℕ → T} {n : ℕ} (h1 : 1 ≤ n) (h2 : n ≤ BUFFERSIZE) {d : Dm T} (h : d.Loaded file n) (t : ℕ) (ht : t < n) :
    ∃ d', d.get K p t = .ok (d', file t) := by
  have hB : BUFFERSIZE = 20000 := rfl
  have hl : usub p d.main.hi 1 = .ok (n - 1) := by rw [h.hi]; exact usub_ok _ h1 (by omega)
  unfold Dm.get
  rw [hl, run_bind_ok]
  unfold Dm.refresh
  rw [if_neg (by omega)]
  by_cases hc : t < d.main.lo
  · rw [if_pos hc, h.kindEq, h.fileEq, h.num, chunk_eq t (by omega)]
    have hq : t / BUFFERSIZE = 0 := Nat.div_eq_of_lt (by omega)
    rw [hq, Nat.zero_mul]
    obtain ⟨b, e, hb, e1, e2⟩ := Buf.load_good p .pdata file n d.main 0 ((0 + 1) * BUFFERSIZE) (by omega) (by omega) (by omega)
    rw [e, run_bind_ok, usub_ok p (by omega) (by omega), run_bind_ok, at_good hb (by omega) (by omega), run_bind_ok]
    exact ⟨_, rfl⟩
  · have hlo : d.main.lo = 0 := by rcases h.lo with h | h <;> omega
    rw [if_neg hc, run_bind_ok, hlo, usub_ok p (by omega) (by omega), run_bind_ok]
    unfold Buf.at'
    rw [if_pos (by omega), run_bind_ok, Nat.sub_zero, h.data t ht]
    exact ⟨_, rfl⟩

/-- **C134, particle-based files of at most 20000 timesteps**, in both builds: after reads of any timesteps, existing or not, returned or raised, each existing timestep is
returned as it is stored. -/
theorem C134_reads [LawfulArith K] {T : Type} (p : Profile) (file : ℕ → T) (n : ℕ) (dflt : T) (h1 : 1 ≤ n) (h2 : n ≤ 20000) (ts : List ℕ) (t : ℕ) (ht : t < n) :
    ∃ d d', Dm.new p .pdata file n dflt = .ok d ∧ (ts.foldl (fun d t => d.getAfter K p t) d).get K p t = .ok (d', file t) := by
  have hB : BUFFERSIZE = 20000 := rfl
  obtain ⟨d, e, hinv, e1, e2, e3, x1, x2, e4, e5⟩ := Dm.new_ok p .pdata file n dflt h1 (by omega)
  have hw : d.Loaded file n := by
    refine ⟨e3, e1, e2, fun i hi => ?_, Or.inl e4, by omega⟩
    have := hinv.1.2.2.2.2 i (by omega)
    rw [this, e1, e4, Nat.zero_add]
  have hw' : (ts.foldl (fun d t => d.getAfter K p t) d).Loaded file n := by
    clear e hinv e1 e2 e3 e4 e5 x1 x2
    induction ts generalizing d with
    | nil => exact hw
    | cons a ts ih => exact ih _ (getAfter_whole p h1 (by omega) hw a)
  obtain ⟨d', e'⟩ := get_whole (K := K) p h1 (by omega) hw' t ht
  exact ⟨d, d', e, e'⟩

/-! ### Where it is false: release builds -/

theorem load_tdata_behind {T : Type} (file : ℕ → T) (n : ℕ) (b : Buf T) (lo hi m : ℕ) (hm : (if hi ≥ n then n else hi) = m) (h : m < lo) :
    b.load .release .tdata file n lo hi = .ok ⟨b.data, lo, m, (m + usizeMod - lo) % usizeMod⟩ := by
  unfold Buf.load
  dsimp only
  rw [hm, if_neg (by omega)]

/-- One read that starts behind its end, in the release build of the time-based manager. -/
theorem get_tdata_behind {T : Type} (d : Dm T) (hk : d.kind = .tdata) (t m : ℕ) (h1 : 1 ≤ d.main.hi) (h2 : d.main.hi < usizeMod) (ht : d.main.hi - 1 < t) (ht' : t < usizeMod)
    (hm : (if (t + d.main.size) % usizeMod ≥ d.n then d.n else (t + d.main.size) % usizeMod) = m) (h : m < t) :
    d.get K .release t = .ok ({ d with main := ⟨d.main.data, t, m, (m + usizeMod - t) % usizeMod⟩ }, d.main.data 0) := by
  have hB : BUFFERSIZE = 20000 := rfl
  unfold Dm.get
  rw [usub_of_le .release h1 h2, run_bind_ok]
  unfold Dm.refresh
  rw [if_pos ht]
  change (d.main.load .release d.kind d.file d.n t ((t + d.main.size) % usizeMod) >>= _) = _
  rw [hk, load_tdata_behind d.file d.n d.main t _ m hm h, run_bind_ok, usub_of_le .release (Nat.le_refl _) ht', run_bind_ok]
  generalize (m + usizeMod - t) % usizeMod = z
  unfold Buf.at'
  dsimp only
  rw [Nat.sub_self, if_pos (by omega), run_bind_ok]
  rfl

theorem item_call (p : Profile) (s : PyData K) (i : ℤ) (d' : Dm (Timestep K)) (ts : Timestep K) (rows : List (Fin 7 → F K))
    (h : s.dm.get K p (asUsize (pyIndex s.dm.n i)) = .ok (d', ts)) (hr : pyRows ts = .ok rows) : s.call p (.item i) = .ok ({ s with dm := d' }, .matrix rows) := by
  have e : PyData.item p s.dm i = .ok (d', rows) := by
    unfold PyData.item
    rw [h, run_bind_ok, hr, run_bind_ok]
    rfl
  change (PyData.item p s.dm i >>= _) = _
  rw [e, run_bind_ok]
  rfl

theorem item_error (p : Profile) (s : PyData K) (i : ℤ) (e : Panic) (h : s.dm.get K p (asUsize (pyIndex s.dm.n i)) = .error e) : s.call p (.item i) = .error e := by
  have e : PyData.item p s.dm i = .error e := by
    unfold PyData.item
    rw [h]
    rfl
  change (PyData.item p s.dm i >>= _) = _
  rw [e]
  rfl

/-- **C134 is false of time-based files in a release build.** Two accesses to timesteps that do not exist, `data[n + 2]` and `data[n + 1]`, are answered with the first timestep (C75);
after them `data[n - 1]`, the last timestep, is answered with the first one as well. -/
theorem C134_time_false [LawfulArith K] (f : OnDisk K) (hty : f.ty = 1) (h1 : 3 ≤ f.n) (h2 : f.n ≤ 2 ^ 50) (rows : List (Fin 7 → F K)) (hrows : pyRows (f.file 0) = .ok rows) :
    f.answer .release [.item (f.n + 2), .item (f.n + 1), .item (f.n - 1)] = .ok (some (.matrix rows)) := by
  have hB : BUFFERSIZE = 20000 := rfl
  have hU : usizeMod = 2 ^ 64 := rfl
  obtain ⟨u, hu⟩ : ∃ u, u = usizeMod - 2 := ⟨_, rfl⟩
  obtain ⟨b, hb⟩ : ∃ b, b = f.n - 1 := ⟨_, rfl⟩
  obtain ⟨c, hc⟩ : ∃ c, c = f.n - 3 := ⟨_, rfl⟩
  have m1 : (f.n + 1 + u) % usizeMod = b := by rw [show f.n + 1 + u = b + usizeMod by omega, Nat.add_mod_right, Nat.mod_eq_of_lt (by omega)]
  have m2 : (b + u) % usizeMod = c := by rw [show b + u = c + usizeMod by omega, Nat.add_mod_right, Nat.mod_eq_of_lt (by omega)]
  obtain ⟨d, e, hinv, e1, e2, e3, _, _, e4, e5⟩ := Dm.new_ok .release .tdata f.file f.n (Timestep.default : Timestep K) (by omega) h2
  have hs := hinv.1.2.2.1
  have d0 : d.main.data 0 = f.file 0 := by
    have := hinv.1.2.2.2.2 0 (by omega)
    rw [this, e1, e4]
  have i1 : asUsize (pyIndex f.n ((f.n : ℤ) + 2)) = f.n + 2 := by
    unfold asUsize pyIndex
    rw [if_neg (by omega), Int.emod_eq_of_lt (by omega) (by rw [hU]; push_cast; omega)]
    omega
  have i2 : asUsize (pyIndex f.n ((f.n : ℤ) + 1)) = f.n + 1 := by
    unfold asUsize pyIndex
    rw [if_neg (by omega), Int.emod_eq_of_lt (by omega) (by rw [hU]; push_cast; omega)]
    omega
  have i3 : asUsize (pyIndex f.n ((f.n : ℤ) - 1)) = b := by
    unfold asUsize pyIndex
    rw [if_neg (by omega), Int.emod_eq_of_lt (by omega) (by rw [hU]; push_cast; omega)]
    omega
  have g1 := get_tdata_behind (K := K) d e3 (f.n + 2) f.n (by omega) (by omega) (by omega) (by omega)
    (by rw [Nat.mod_eq_of_lt (by omega), e2, if_pos (by omega)]) (by omega)
  have w1 : (f.n + usizeMod - (f.n + 2)) % usizeMod = u := by rw [Nat.mod_eq_of_lt (by omega)]; omega
  rw [w1] at g1
  have w2 : (b + usizeMod - (f.n + 1)) % usizeMod = u := by rw [Nat.mod_eq_of_lt (by omega)]; omega
  have g2 := get_tdata_behind (K := K) ({ d with main := ⟨d.main.data, f.n + 2, f.n, u⟩ } : Dm (Timestep K)) e3 (f.n + 1) b
    (by dsimp only; omega) (by dsimp only; omega) (by dsimp only; omega) (by omega)
    (by dsimp only; rw [m1, e2, if_neg (by omega)]) (by omega)
  rw [w2] at g2
  have g3 := get_tdata_behind (K := K) ({ d with main := ⟨d.main.data, f.n + 1, b, u⟩ } : Dm (Timestep K)) e3 b c
    (by dsimp only; omega) (by dsimp only; omega) (by dsimp only; omega) (by omega)
    (by dsimp only; rw [m2, e2, if_neg (by omega)]) (by omega)
  dsimp only at g2 g3
  rw [d0] at g1 g2 g3
  generalize hd1 : ({ d with main := ⟨d.main.data, f.n + 2, f.n, u⟩ } : Dm (Timestep K)) = d1 at g1 g2
  generalize hd2 : ({ d with main := ⟨d.main.data, f.n + 1, b, u⟩ } : Dm (Timestep K)) = d2 at g2 g3
  generalize ({ d with main := ⟨d.main.data, b, c, (c + usizeMod - b) % usizeMod⟩ } : Dm (Timestep K)) = d3 at g3
  have n1 : d1.n = f.n := by rw [← hd1]; exact e2
  have n2 : d2.n = f.n := by rw [← hd2]; exact e2
  clear hd1 hd2
  unfold OnDisk.answer OnDisk.session OnDisk.load
  rw [if_pos hty, e, run_bind_ok]
  have c1 := item_call .release ⟨d, f.st, f.maxTime, Selector.default⟩ _ _ _ _ (by rw [e2, i1]; exact g1) hrows
  have c2 := item_call .release ⟨d1, f.st, f.maxTime, Selector.default⟩ _ _ _ _ (by rw [n1, i2]; exact g2) hrows
  have c3 := item_call .release ⟨d2, f.st, f.maxTime, Selector.default⟩ _ _ _ _ (by rw [n2, i3]; exact g3) hrows
  dsimp only at c1 c2 c3
  clear g1 g2 g3 w1 w2 m1 m2 hu hU
  have all : PyData.calls .release (⟨d, f.st, f.maxTime, Selector.default⟩ : PyData K) [.item (f.n + 2), .item (f.n + 1), .item (f.n - 1)] =
      .ok (⟨d3, f.st, f.maxTime, Selector.default⟩, [.matrix rows, .matrix rows, .matrix rows]) := by
    unfold PyData.calls
    rw [c1, run_bind_ok]
    unfold PyData.calls
    dsimp only
    rw [c2, run_bind_ok]
    unfold PyData.calls
    dsimp only
    rw [c3, run_bind_ok]
    rfl
  rw [run_pure, run_bind_ok, all, run_bind_ok, run_pure]
  rfl

/-- **C134 is false of particle-based files of more than 20000 timesteps in a release build.** `data[n + 1]` raises, as it should; after that `data[20000]`, which exists and was readable
before, raises too. -/
theorem C134_particle_false [LawfulArith K] (f : OnDisk K) (hty : f.ty = 2) (h1 : 20000 < f.n) (h2 : f.n ≤ 2 ^ 50) (rows : List (Fin 7 → F K))
    (hrows : pyRows (f.file 20000) = .ok rows) :
    ∃ s t, f.load .release = .ok s ∧ s.History .release [(.item (f.n + 1), false)] t ∧ (∃ s', s.call .release (.item 20000) = .ok (s', .matrix rows)) ∧
      ∃ e, t.call .release (.item 20000) = .error e := by
  have hB : BUFFERSIZE = 20000 := rfl
  have hU : usizeMod = 2 ^ 64 := rfl
  obtain ⟨u, hu⟩ : ∃ u, u = usizeMod - 1 := ⟨_, rfl⟩
  have hu' : (20000 + u) % usizeMod = 19999 := by rw [show 20000 + u = 19999 + usizeMod by omega, Nat.add_mod_right, Nat.mod_eq_of_lt (by omega)]
  obtain ⟨d, e, hinv, e1, e2, e3, _, _, e4, e5⟩ := Dm.new_ok .release .pdata f.file f.n (Timestep.default : Timestep K) (by omega) h2
  have hs := hinv.1.2.2.1
  have hl : usub .release d.main.hi 1 = .ok 19999 := by rw [usub_of_le .release (by omega) (by omega)]; congr 1; omega
  have i1 : asUsize (pyIndex f.n ((f.n : ℤ) + 1)) = f.n + 1 := by
    unfold asUsize pyIndex
    rw [if_neg (by omega), Int.emod_eq_of_lt (by omega) (by rw [hU]; push_cast; omega)]
    omega
  have i2 : asUsize (pyIndex f.n 20000) = 20000 := by
    unfold asUsize pyIndex
    rw [if_neg (by omega), Int.emod_eq_of_lt (by omega) (by rw [hU]; norm_num)]
    rfl
  have ua : uadd .release (f.n + 1) d.main.size = .ok (f.n + 1 + d.main.size) := uadd_of_lt .release (by omega)
  have wr : (f.n + usizeMod - (f.n + 1)) % usizeMod = u := by rw [Nat.mod_eq_of_lt (by omega), hu]; omega
  have em : (if f.n + 1 + d.main.size ≥ f.n then f.n else f.n + 1 + d.main.size) = f.n := if_pos (by omega)
  have hfail : d.get K .release (f.n + 1) = .error .explicit := by
    unfold Dm.get
    rw [hl, run_bind_ok]
    unfold Dm.refresh
    rw [if_pos (by omega), ua, run_bind_ok, e3, e2]
    unfold Buf.load
    dsimp only
    rw [em, if_neg (by omega)]
    rfl
  have hafter : d.getAfter K .release (f.n + 1) = { d with main := ⟨d.main.data, d.main.lo, d.main.hi, u⟩ } := by
    unfold Dm.getAfter
    rw [hl]
    dsimp only
    rw [if_pos (by omega), ua]
    dsimp only
    have : d.main.after .release d.kind d.file d.n (f.n + 1) (f.n + 1 + d.main.size) = ⟨d.main.data, d.main.lo, d.main.hi, u⟩ := by
      rw [e3, e2]
      unfold Buf.after
      dsimp only
      rw [em, if_neg (by omega), wr]
    rw [this]
  obtain ⟨b, hread, _⟩ := Dm.get_ok (K := K) .release d hinv 20000 (by omega)
  rw [e1] at hread
  refine ⟨⟨d, f.st, f.maxTime, Selector.default⟩, ⟨{ d with main := ⟨d.main.data, d.main.lo, d.main.hi, u⟩ }, f.st, f.maxTime, Selector.default⟩, ?_, ?_, ?_, .explicit, ?_⟩
  · unfold OnDisk.load
    rw [if_neg (by omega), if_pos hty, e, run_bind_ok]
    rfl
  · have hr : PyData.Raised .release (⟨d, f.st, f.maxTime, Selector.default⟩ : PyData K) (.item (f.n + 1)) _ := PyData.Raised.item ((f.n : ℤ) + 1)
    dsimp only at hr
    rw [e2, i1, hafter] at hr
    refine PyData.History.raised (cs := []) (.item (f.n + 1)) .explicit .start ?_ hr
    exact item_error .release _ _ .explicit (by rw [e2, i1]; exact hfail)
  · refine ⟨_, item_call .release ⟨d, f.st, f.maxTime, Selector.default⟩ 20000 _ _ rows (by rw [e2, i2]; exact hread) hrows⟩
  · have hg : Dm.get K .release ({ d with main := ⟨d.main.data, d.main.lo, d.main.hi, u⟩ } : Dm (Timestep K)) 20000 = .error .explicit := by
      unfold Dm.get
      dsimp only
      rw [hl, run_bind_ok]
      unfold Dm.refresh
      dsimp only
      rw [if_pos (by omega)]
      have ua' : uadd .release 20000 u = .ok 19999 := by rw [← hu']; rfl
      rw [ua', run_bind_ok, e3, e2]
      unfold Buf.load
      dsimp only
      have em' : (if 19999 ≥ f.n then f.n else 19999) = 19999 := if_neg (by omega)
      rw [em', if_neg (by omega)]
      rfl
    generalize hd : ({ d with main := ⟨d.main.data, d.main.lo, d.main.hi, u⟩ } : Dm (Timestep K)) = d' at hg ⊢
    have hn : d'.n = f.n := by rw [← hd]; exact e2
    exact item_error .release ⟨d', f.st, f.maxTime, Selector.default⟩ 20000 .explicit (by rw [hn, i2]; exact hg)

/-- Case for `C134_harmless_partial`: a file of four timesteps in a debug build; a time window, an index that does not exist, and a window behind the end. The last two raise; whatever is asked
next is answered as if only the first had been called. -/
example (c : Call ℝ) (hc : c.Fits 4) :
    let f : OnDisk ℝ := ⟨1, demoFile, 4, ⟨fun _ => (fin 0, fin 2), 1, [], ![fin 5, fin 5, fin 5]⟩, fin 3⟩
    ∃ s t, f.load .debug = .ok s ∧ s.History .debug [(.setTime (fin 1) (fin 2), true), (.item 9, false), (.setTime (fin 9) (fin 10), false)] t ∧
      (do let r ← t.call .debug c; pure (some r.2)) = f.answer .debug [.setTime (fin 1) (fin 2), c] := by
  intro f
  obtain ⟨d, e, hinv, e1, e2, e3, _, _, e4, e5⟩ := Dm.new_ok .debug .tdata demoFile 4 (Timestep.default : Timestep ℝ) (by norm_num) (by norm_num)
  have hB : BUFFERSIZE = 20000 := rfl
  have hs := hinv.1.2.2.1
  have hl : f.load .debug = .ok ⟨d, f.st, f.maxTime, Selector.default⟩ := by
    unfold OnDisk.load
    rw [if_pos (show f.ty = 1 from rfl)]
    change (Dm.new .debug .tdata demoFile 4 Timestep.default >>= _) = _
    rw [e]; rfl
  have c1 : PyData.call .debug ⟨d, f.st, f.maxTime, Selector.default⟩ (.setTime (fin 1) (fin 2)) =
      .ok (⟨d, f.st, f.maxTime, Selector.default.setTime (fin 1) (fin 2)⟩, .none) := by
    change (PyData.setTime _ _ _ >>= _) = _
    unfold PyData.setTime
    rw [if_neg]
    · rfl
    · change ¬ (fin (3 : ℝ) < fin 1)
      rw [F.lt_fin]; norm_num
  have i1 : asUsize (pyIndex d.n 9) = 9 := by rw [e2]; rfl
  have c2 : PyData.call .debug ⟨d, f.st, f.maxTime, Selector.default.setTime (fin 1) (fin 2)⟩ (.item 9) = .error .overflow := by
    have : d.get ℝ .debug 9 = .error .overflow := by
      unfold Dm.get
      rw [usub_ok .debug (by omega) (by omega), run_bind_ok]
      unfold Dm.refresh
      rw [if_pos (by omega), uadd_ok .debug (by omega), run_bind_ok, e2]
      unfold Buf.load
      dsimp only
      have em : (if 9 + d.main.size ≥ 4 then 4 else 9 + d.main.size) = 4 := if_pos (by omega)
      rw [em, if_neg (by omega), e3]
      rfl
    exact item_error .debug _ _ _ (by rw [i1]; exact this)
  have r2 := PyData.Raised.item (p := .debug) (s := (⟨d, f.st, f.maxTime, Selector.default.setTime (fin 1) (fin 2)⟩ : PyData ℝ)) 9
  generalize hd' : ({ (⟨d, f.st, f.maxTime, Selector.default.setTime (fin 1) (fin 2)⟩ : PyData ℝ) with
    dm := Dm.getAfter ℝ .debug d (asUsize (pyIndex d.n 9)) } : PyData ℝ) = s2 at r2
  have hm : s2.maxTime = fin 3 := by rw [← hd']
  have c3 : s2.call .debug (.setTime (fin 9) (fin 10)) = .error .explicit := by
    change (PyData.setTime _ _ _ >>= _) = _
    unfold PyData.setTime
    rw [if_pos]
    · rfl
    · rw [hm, F.lt_fin]; norm_num
  have hist : PyData.History .debug (⟨d, f.st, f.maxTime, Selector.default⟩ : PyData ℝ)
      [(.setTime (fin 1) (fin 2), true), (.item 9, false), (.setTime (fin 9) (fin 10), false)] s2 :=
    .raised (cs := [(.setTime (fin 1) (fin 2), true), (.item 9, false)]) _ _
      (.raised (cs := [(.setTime (fin 1) (fin 2), true)]) _ _ (.returned (cs := []) _ _ .start c1) c2 r2) c3 (.setTime _ _)
  refine ⟨_, s2, hl, hist, ?_⟩
  refine (C134_harmless_partial .debug f (by change 1 ≤ 4; norm_num) (by change 4 ≤ 2 ^ 50; norm_num) _ s2 hl _ hist ?_ c hc).trans ?_
  · intro c hc
    simp only [List.mem_cons, List.not_mem_nil, or_false] at hc
    rcases hc with rfl | rfl | rfl
    · exact ⟨trivial, trivial⟩
    · refine ⟨⟨by norm_num, by norm_num⟩, Or.inr ⟨rfl, ?_⟩⟩
      intro h
      have : (9 : ℤ) = ((4 : ℕ) : ℤ) := Call.item.inj h
      norm_num at this
    · exact ⟨trivial, Or.inl trivial⟩
  · simp [completed, settings, Call.setsTime]

/-- Case for `C134_reads`: three timesteps; `data[7]` and `data[3]` do not exist, the middle one is read as it is stored. -/
example : ∃ d d', Dm.new .release .pdata demoFile 3 (Timestep.default : Timestep ℝ) = .ok d ∧
    ([7, 3].foldl (fun d t => d.getAfter ℝ .release t) d).get ℝ .release 1 = .ok (d', demoFile 1) :=
  C134_reads .release demoFile 3 Timestep.default (by norm_num) (by norm_num) [7, 3] 1 (by norm_num)

/-- Case for `C134_time_false` and `C134_particle_false`: the demo file with four and with 30000 timesteps. -/
example (st : Stats ℝ) : (∃ rows, OnDisk.answer .release ⟨1, demoFile, 4, st, fin 3⟩ [.item (((4 : ℕ) : ℤ) + 2), .item (((4 : ℕ) : ℤ) + 1), .item (((4 : ℕ) : ℤ) - 1)] = .ok (some (.matrix rows))) ∧
    ∃ s, OnDisk.load .release (⟨2, demoFile, 30000, st, fin 29999⟩ : OnDisk ℝ) = .ok s := by
  obtain ⟨rows, e, _⟩ := pyRows_ok (demoFile 0) (le_refl 1) (le_refl 1)
  obtain ⟨rows', e', _⟩ := pyRows_ok (demoFile 20000) (le_refl 1) (le_refl 1)
  obtain ⟨s, _, h, _⟩ := C134_particle_false (⟨2, demoFile, 30000, st, fin 29999⟩ : OnDisk ℝ) rfl (by norm_num) (by norm_num) rows' e'
  exact ⟨⟨rows, C134_time_false (⟨1, demoFile, 4, st, fin 3⟩ : OnDisk ℝ) rfl (by norm_num) (by norm_num) rows e⟩, s, h⟩

end Up4
