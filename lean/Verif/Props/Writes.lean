import Verif.Model.Writes
import Verif.Props.Shape

set_option linter.unusedSectionVars false

/-!
# C94: an interrupted or failed conversion is never mistaken for data
-/

namespace Up4
open F Log

variable {K : Type} [Field K] [LinearOrder K] [IsStrictOrderedRing K] [FloorRing K] [Arith K]

/-- The file of a conversion that has returned (time-based). -/
def TOut.part (o : TOut K) : Part K :=
  ⟨some 1, o.groups, [], some o.attrs.dims, some o.attrs.np, some o.attrs.n, some o.attrs.sampleRate, some o.attrs.time, some o.attrs.vel, some o.attrs.mag,
    some o.attrs.timeArray⟩

/-- The file of a conversion that has returned (particle-based). -/
def POut.part (o : POut K) : Part K :=
  ⟨some 2, [], o.groups, some o.attrs.dims, some o.attrs.np, some o.attrs.n, some o.attrs.sampleRate, some o.attrs.time, some o.attrs.vel, some o.attrs.mag,
    some o.attrs.timeArray⟩

/-- The write of the time array. -/
def Wr.isLast : Wr K → Bool
  | .timeArray _ => true
  | _ => false

/-! ### Writing programs -/

theorem emit_bind {α : Type} (w : Wr K) (f : Unit → Log K α) : (emit w >>= f) = ⟨w :: (f ()).writes, (f ()).res⟩ := rfl
theorem lift_ok {α β : Type} (a : α) (f : α → Log K β) : ((lift (.ok a) : Log K α) >>= f) = f a := rfl
theorem lift_error {α β : Type} (e : Panic) (f : α → Log K β) : ((lift (.error e) : Log K α) >>= f) = lift (.error e) := rfl
theorem lift_bind_res {α β : Type} (r : Run α) (f : α → Log K β) : ((lift r : Log K α) >>= f).res = r >>= fun a => (f a).res := by
  cases r <;> rfl
theorem lift_bind_writes {α β : Type} (r : Run α) (f : α → Log K β) :
    ((lift r : Log K α) >>= f).writes = match r with | .ok a => (f a).writes | .error _ => [] := by
  cases r <;> rfl

theorem bind_res {α β : Type} (m : Log K α) (f : α → Log K β) : (m >>= f).res = m.res >>= fun a => (f a).res := by
  change (andThen m f).res = _
  unfold andThen
  cases h : m.res <;> rfl

theorem bind_writes_ok {α β : Type} {m : Log K α} {a : α} (h : m.res = .ok a) (f : α → Log K β) : (m >>= f).writes = m.writes ++ (f a).writes := by
  change (andThen m f).writes = _
  unfold andThen
  rw [h]

theorem bind_writes_error {α β : Type} {m : Log K α} {e : Panic} (h : m.res = .error e) (f : α → Log K β) : (m >>= f).writes = m.writes := by
  change (andThen m f).writes = _
  unfold andThen
  rw [h]

theorem replay_append (d : Option (Part K)) (a b : List (Wr K)) : replay d (a ++ b) = replay (replay d a) b := List.foldl_append ..

theorem replay_cons (d : Option (Part K)) (a : Wr K) (b : List (Wr K)) : replay d (a :: b) = replay (a.apply d) b := rfl

theorem loop_res {α σ : Type} {f : σ → α → Log K σ} {g : σ → α → Run σ} (h : ∀ s a, (f s a).res = g s a) (l : List α) (s : σ) :
    (loop f s l).res = l.foldlM g s := by
  induction l generalizing s with
  | nil => rfl
  | cons a l ih =>
    have e : loop f s (a :: l) = (f s a >>= fun s => loop f s l) := rfl
    rw [e, bind_res, h, List.foldlM_cons]
    congr 1
    funext s
    exact ih s

theorem loop_writes {α σ : Type} {f : σ → α → Log K σ} {P : Wr K → Prop} (h : ∀ s a, ∀ w ∈ (f s a).writes, P w) (l : List α) (s : σ) :
    ∀ w ∈ (loop f s l).writes, P w := by
  induction l generalizing s with
  | nil => intro w hw; cases hw
  | cons a l ih =>
    have e : loop f s (a :: l) = (f s a >>= fun s => loop f s l) := rfl
    rw [e]
    cases hr : (f s a).res with
    | error => rw [bind_writes_error hr]; exact h s a
    | ok s' =>
      rw [bind_writes_ok hr]
      intro w hw
      rcases List.mem_append.1 hw with hw | hw
      · exact h s a w hw
      · exact ih s' w hw

/-- An effect kept by every turn. -/
theorem loop_effect {α σ : Type} {f : σ → α → Log K σ} {E : σ → Part K → Part K} {Q : σ → Part K → Prop}
    (h : ∀ s a s', (f s a).res = .ok s' → ∀ d, Q s d → replay (some d) (f s a).writes = some (E s' d) ∧ Q s' (E s' d))
    (hE : ∀ s s' d, E s' (E s d) = E s' d) (h0 : ∀ s d, Q s d → E s d = d) (l : List α) (s s' : σ) (hr : (loop f s l).res = .ok s') (d : Part K)
    (hq : Q s d) : replay (some d) (loop f s l).writes = some (E s' d) := by
  induction l generalizing s d with
  | nil =>
    injection hr with hr
    subst hr
    rw [h0 s d hq]
    rfl
  | cons a l ih =>
    have e : loop f s (a :: l) = (f s a >>= fun s => loop f s l) := rfl
    rw [e] at hr ⊢
    rw [bind_res] at hr
    obtain ⟨s1, h1, hr⟩ := run_bind_inv hr
    rw [bind_writes_ok h1, replay_append]
    obtain ⟨e1, q1⟩ := h s a s1 h1 d hq
    rw [e1, ih s1 hr _ q1, hE]

/-! ### A file without time array is refused -/

theorem need_none {α : Type} : (need (none : Option α)) = .error .explicit := rfl

theorem need_ok {α : Type} (a : α) : need (some a) = .ok a := rfl

theorem attrs_inv {d : Part K} {a : Attrs K} (h : d.attrs = .ok a) : d.timeArray = some a.timeArray := by
  unfold Part.attrs at h
  obtain ⟨_, _, h⟩ := run_bind_inv h
  obtain ⟨_, _, h⟩ := run_bind_inv h
  obtain ⟨_, _, h⟩ := run_bind_inv h
  obtain ⟨_, _, h⟩ := run_bind_inv h
  obtain ⟨_, _, h⟩ := run_bind_inv h
  obtain ⟨_, _, h⟩ := run_bind_inv h
  obtain ⟨_, _, h⟩ := run_bind_inv h
  obtain ⟨t, ht, h⟩ := run_bind_inv h
  injection h with h
  subst h
  cases hd : d.timeArray with
  | none => rw [hd] at ht; cases ht
  | some t' => rw [hd] at ht; injection ht with ht; rw [ht]

theorem load_refuses (p : Profile) {d : Part K} (h : d.timeArray = none) : ∃ e, loadPart p (some d) = .error e := by
  cases hl : loadPart p (some d) with
  | error e => exact ⟨e, rfl⟩
  | ok s =>
    exfalso
    unfold loadPart at hl
    obtain ⟨d', hd', hl⟩ := run_bind_inv hl
    injection hd' with hd'
    subst hd'
    obtain ⟨ty, hty, hl⟩ := run_bind_inv hl
    by_cases h1 : ty = 1
    · rw [if_pos h1] at hl
      obtain ⟨a, ha, _⟩ := run_bind_inv hl
      rw [attrs_inv ha] at h
      cases h
    · rw [if_neg h1] at hl
      by_cases h2 : ty = 2
      · rw [if_pos h2] at hl
        obtain ⟨a, ha, _⟩ := run_bind_inv hl
        rw [attrs_inv ha] at h
        cases h
      · rw [if_neg h2] at hl
        cases hl

theorem apply_noLast {w : Wr K} (hw : w.isLast = false) {d : Part K} (h : d.timeArray = none) : ∃ d', w.apply (some d) = some d' ∧ d'.timeArray = none := by
  cases w <;> first | exact ⟨_, rfl, h⟩ | exact ⟨_, rfl, rfl⟩ | cases hw

theorem replay_noLast {l : List (Wr K)} (hl : ∀ w ∈ l, w.isLast = false) {d : Part K} (h : d.timeArray = none) :
    ∃ d', replay (some d) l = some d' ∧ d'.timeArray = none := by
  induction l generalizing d with
  | nil => exact ⟨d, rfl, h⟩
  | cons w l ih =>
    obtain ⟨d', e, h'⟩ := apply_noLast (hl w List.mem_cons_self) h
    rw [replay_cons, e]
    exact ih (fun w hw => hl w (List.mem_cons_of_mem _ hw)) h'

theorem load_noLast (p : Profile) (old : Option (Part K)) {l : List (Wr K)} (hl : ∀ w ∈ l, w.isLast = false) :
    ∃ e, loadPart p (replay old (Wr.create :: l)) = .error e := by
  rw [replay_cons]
  obtain ⟨d', e, h'⟩ := replay_noLast hl (d := Part.empty) rfl
  rw [show Wr.create.apply old = some Part.empty from by cases old <;> rfl, e]
  exact load_refuses p h'

/-! ### The shape of a converter's writes -/

/-- The writes of a converter: none; or the creation of the file, then writes none of which is that of the time array; or all that and, last, the
time array. -/
structure Log.Shape (m : Log K Unit) (full : Run (Part K)) : Prop where
  res : (m.res = .ok ()) ↔ ∃ d, full = .ok d
  done : ∀ d, full = .ok d → ∃ b t, m.writes = Wr.create :: (b ++ [Wr.timeArray t]) ∧ (∀ w ∈ b, w.isLast = false) ∧
    ∀ old, replay old m.writes = some d
  failed : ∀ e, full = .error e → m.writes = [] ∨ ∃ b, m.writes = Wr.create :: b ∧ ∀ w ∈ b, w.isLast = false

theorem shape_crash {m : Log K Unit} {full : Run (Part K)} (hm : m.Shape full) (old : Option (Part K)) {W : List (Wr K)} (hW : W <+: m.writes) :
    (W = [] ∧ replay old W = old) ∨ (W = m.writes ∧ ∃ d, full = .ok d ∧ replay old W = some d) ∨ ∀ p, ∃ e, loadPart p (replay old W) = .error e := by
  by_cases hne : W = []
  · left; subst hne; exact ⟨rfl, rfl⟩
  right
  cases hf : full with
  | ok d =>
    obtain ⟨b, t, hw, hb, hr⟩ := hm.done d hf
    by_cases hall : W = m.writes
    · left
      refine ⟨hall, d, rfl, ?_⟩
      rw [hall]; exact hr old
    · right
      obtain ⟨rest, hrest⟩ := hW
      have hrne : rest ≠ [] := by
        rintro rfl
        rw [List.append_nil] at hrest
        exact hall hrest
      obtain ⟨c, W', rfl⟩ := List.exists_cons_of_ne_nil hne
      rw [hw, List.cons_append] at hrest
      injection hrest with hc hrest
      subst hc
      have hpre : ∀ w ∈ W', w ∈ b := by
        obtain ⟨r', x, rfl⟩ : ∃ r' x, rest = r' ++ [x] := ⟨rest.dropLast, rest.getLast hrne, (List.dropLast_append_getLast hrne).symm⟩
        rw [← List.append_assoc] at hrest
        have := (List.append_inj' hrest rfl).1
        rw [← this]
        intro w hw
        exact List.mem_append_left _ hw
      intro p
      exact load_noLast p old fun w hw => hb w (hpre w hw)
  | error e =>
    right
    intro p
    rcases hm.failed e hf with h0 | ⟨b, hw, hb⟩
    · rw [h0] at hW
      exact absurd (List.prefix_nil.1 hW) hne
    · obtain ⟨rest, hrest⟩ := hW
      obtain ⟨c, W', rfl⟩ := List.exists_cons_of_ne_nil hne
      rw [hw, List.cons_append] at hrest
      injection hrest with hc hrest
      subst hc
      refine load_noLast p old fun w hw' => hb w ?_
      rw [← hrest]
      exact List.mem_append_left _ hw'

theorem attrsLog_res (a : Attrs K) : (attrsLog a).res = .ok () := rfl

theorem attrsLog_writes (a : Attrs K) : (attrsLog a).writes
    = [.dims a.dims, .np a.np, .n a.n, .sampleRate a.sampleRate, .time a.time, .vel a.vel, .mag a.mag] ++ [.timeArray a.timeArray] := rfl

/-- A converter: create, then a part that does not write the time array, then the attributes. -/
theorem shape_of {σ : Type} {ty : ℤ} {body : Log K σ} {r : Run σ} {attrs : σ → Attrs K} {content : σ → Part K}
    (hres : body.res = r) (hno : ∀ w ∈ body.writes, w.isLast = false)
    (heff : ∀ s, r = .ok s → replay (some { Part.empty with kind := some ty }) body.writes = some (content s)) :
    Log.Shape (startLog ty >>= fun _ => body >>= fun s => attrsLog (attrs s)) (r >>= fun s => pure { content s with
      dims := some (attrs s).dims, np := some (attrs s).np, n := some (attrs s).n, sampleRate := some (attrs s).sampleRate, time := some (attrs s).time,
      vel := some (attrs s).vel, mag := some (attrs s).mag, timeArray := some (attrs s).timeArray }) := by
  have hstart : (startLog ty >>= fun _ => body >>= fun s => attrsLog (attrs s) : Log K Unit)
      = ⟨.create :: .kind ty :: (body >>= fun s => attrsLog (attrs s)).writes, (body >>= fun s => attrsLog (attrs s)).res⟩ := rfl
  rw [hstart]
  cases hr : r with
  | error e =>
    rw [hr] at hres
    refine ⟨?_, ?_, ?_⟩
    · change (body >>= fun s => attrsLog (attrs s)).res = .ok () ↔ _
      rw [bind_res, hres]
      constructor
      · intro h; cases h
      · rintro ⟨d, h⟩; cases h
    · intro d h; cases h
    · intro e' _
      right
      refine ⟨.kind ty :: body.writes, ?_, ?_⟩
      · rw [bind_writes_error hres]
      · intro w hw
        rcases List.mem_cons.1 hw with rfl | hw
        · rfl
        · exact hno w hw
  | ok s =>
    rw [hr] at hres
    refine ⟨?_, ?_, ?_⟩
    · change (body >>= fun s => attrsLog (attrs s)).res = .ok () ↔ _
      rw [bind_res, hres]
      exact ⟨fun _ => ⟨_, rfl⟩, fun _ => rfl⟩
    · intro d h
      injection h with h
      subst h
      refine ⟨.kind ty :: (body.writes ++ [.dims (attrs s).dims, .np (attrs s).np, .n (attrs s).n, .sampleRate (attrs s).sampleRate, .time (attrs s).time,
        .vel (attrs s).vel, .mag (attrs s).mag]), (attrs s).timeArray, ?_, ?_, ?_⟩
      · rw [bind_writes_ok hres, attrsLog_writes]
        simp
      · intro w hw
        rcases List.mem_cons.1 hw with rfl | hw
        · rfl
        · rcases List.mem_append.1 hw with hw | hw
          · exact hno w hw
          · fin_cases hw <;> rfl
      · intro old
        dsimp only
        rw [bind_writes_ok hres, replay_cons, replay_cons, replay_append]
        rw [show Wr.create.apply old = some Part.empty from by cases old <;> rfl]
        rw [show (Wr.kind ty).apply (some (Part.empty : Part K)) = some { Part.empty with kind := some ty } from rfl, heff s hr]
        rfl
    · intro e h; cases h

/-! ### VTK files -/

theorem onLast_append {α : Type} (f : α → α) (l : List α) (a : α) : onLast f (l ++ [a]) = l ++ [f a] := by
  induction l with
  | nil => rfl
  | cons b l ih =>
    cases l with
    | nil => rfl
    | cons c l => change b :: onLast f (c :: l ++ [a]) = _; rw [ih]; rfl

theorem vtkStepLog_res (o : VtkOpts) (dt : F K) (s : VtkState K) (x : VtkFile K × ℕ) : (vtkStepLog o dt s x).res = vtkStep o dt s x := by
  unfold vtkStepLog vtkStep vtkGroup
  dsimp only
  rw [emit_bind]
  dsimp only
  by_cases h1 : ofInt x.1.step * dt < s.time1
  · rw [if_pos h1, if_pos h1]; rfl
  rw [if_neg h1, if_neg h1, emit_bind]
  dsimp only
  by_cases h2 : o.hasId = false
  · rw [if_pos h2, if_pos h2]; rfl
  rw [if_neg h2, if_neg h2]
  cases h3 : sortByArray x.1.ids (makeSortlist x.1.ids) with
  | error e => rfl
  | ok ids =>
    rw [lift_ok, run_bind_ok]
    by_cases h4 : ids = []
    · rw [if_pos h4, if_pos h4]; rfl
    rw [if_neg h4, if_neg h4, emit_bind]
    dsimp only
    cases h5 : vtkRadius o x.1 (makeSortlist x.1.ids) with
    | error e => rfl
    | ok radius =>
      rw [lift_ok, run_bind_ok, emit_bind, emit_bind]
      dsimp only
      cases h6 : vtkTypes o x.1 (makeSortlist x.1.ids) radius.length with
      | error e => rfl
      | ok types =>
        rw [lift_ok, run_bind_ok, emit_bind]
        dsimp only
        by_cases h7 : o.hasVel = false
        · rw [if_pos h7, if_pos h7]; rfl
        rw [if_neg h7, if_neg h7]
        cases h8 : sortByArray x.1.velocity (makeSortlist x.1.ids) with
        | error e => rfl
        | ok v =>
          rw [lift_ok, run_bind_ok]
          cases h9 : shape3 v with
          | error e => rfl
          | ok vel =>
            rw [lift_ok, run_bind_ok, emit_bind]
            dsimp only
            cases h10 : sortByArray x.1.points (makeSortlist x.1.ids) with
            | error e => rfl
            | ok q =>
              rw [lift_ok, run_bind_ok]
              cases h11 : shape3 q with
              | error e => rfl
              | ok pos => rfl

/-- Membership in the writes of a program, step by step. -/
theorem writes_emit {α : Type} {P : Wr K → Prop} {w : Wr K} {f : Unit → Log K α} (h : P w) (hf : ∀ x ∈ (f ()).writes, P x) :
    ∀ x ∈ (emit w >>= f).writes, P x := by
  intro x hx
  rw [emit_bind] at hx
  rcases List.mem_cons.1 hx with rfl | hx
  · exact h
  · exact hf x hx

theorem writes_lift {α β : Type} {P : Wr K → Prop} {r : Run α} {f : α → Log K β} (hf : ∀ a, ∀ x ∈ (f a).writes, P x) :
    ∀ x ∈ ((lift r : Log K α) >>= f).writes, P x := by
  intro x hx
  rw [lift_bind_writes] at hx
  cases r with
  | error e => cases hx
  | ok a => exact hf a x hx

theorem writes_fail {α : Type} {P : Wr K → Prop} (e : Panic) : ∀ x ∈ ((lift (.error e) : Log K α)).writes, P x := by
  intro x hx; cases hx

theorem writes_ret {α : Type} {P : Wr K → Prop} (a : α) : ∀ x ∈ ((pure a : Log K α)).writes, P x := by
  intro x hx; cases hx

theorem writes_if {α : Type} {P : Wr K → Prop} {c : Prop} [Decidable c] {a b : Log K α} (ha : ∀ x ∈ a.writes, P x) (hb : ∀ x ∈ b.writes, P x) :
    ∀ x ∈ (if c then a else b).writes, P x := by
  by_cases h : c
  · rw [if_pos h]; exact ha
  · rw [if_neg h]; exact hb

theorem vtkStepLog_writes (o : VtkOpts) (dt : F K) (s : VtkState K) (x : VtkFile K × ℕ) : ∀ w ∈ (vtkStepLog o dt s x).writes, w.isLast = false := by
  unfold vtkStepLog
  refine writes_emit rfl (writes_if (writes_fail _) (writes_emit rfl (writes_if (writes_fail _) (writes_lift fun ids => writes_if (writes_fail _)
    (writes_emit rfl (writes_lift fun radius => writes_emit rfl (writes_emit rfl (writes_lift fun types => writes_emit rfl
      (writes_if (writes_fail _) (writes_lift fun v => writes_lift fun vel => writes_emit rfl (writes_lift fun q => writes_lift fun pos =>
        writes_emit rfl (writes_ret _))))))))))))

theorem lift_inv {α β : Type} {r : Run α} {f : α → Log K β} {b : β} (h : ((lift r : Log K α) >>= f).res = .ok b) :
    ∃ a, r = .ok a ∧ ((lift r : Log K α) >>= f) = f a := by
  cases r with
  | error e => cases h
  | ok a => exact ⟨a, rfl, rfl⟩

theorem vtkStepLog_effect (o : VtkOpts) (dt : F K) (s s' : VtkState K) (x : VtkFile K × ℕ) (h : (vtkStepLog o dt s x).res = .ok s') (d : Part K)
    (hd : d.tgroups = s.groups) : replay (some d) (vtkStepLog o dt s x).writes = some { d with tgroups := s'.groups } := by
  unfold vtkStepLog at h ⊢
  dsimp only at h ⊢
  rw [emit_bind] at h ⊢
  dsimp only at h ⊢
  by_cases h1 : ofInt x.1.step * dt < s.time1
  · rw [if_pos h1] at h; cases h
  rw [if_neg h1, emit_bind] at h ⊢
  dsimp only at h ⊢
  by_cases h2 : o.hasId = false
  · rw [if_pos h2] at h; cases h
  rw [if_neg h2] at h ⊢
  obtain ⟨ids, h3, e⟩ := lift_inv h
  rw [e] at h ⊢; clear e
  by_cases h4 : ids = []
  · rw [if_pos h4] at h; cases h
  rw [if_neg h4, emit_bind] at h ⊢
  dsimp only at h ⊢
  obtain ⟨radius, h5, e⟩ := lift_inv h
  rw [e] at h ⊢; clear e
  rw [emit_bind, emit_bind] at h ⊢
  dsimp only at h ⊢
  obtain ⟨types, h6, e⟩ := lift_inv h
  rw [e] at h ⊢; clear e
  rw [emit_bind] at h ⊢
  dsimp only at h ⊢
  by_cases h7 : o.hasVel = false
  · rw [if_pos h7] at h; cases h
  rw [if_neg h7] at h ⊢
  obtain ⟨v, h8, e⟩ := lift_inv h
  rw [e] at h ⊢; clear e
  obtain ⟨vel, h9, e⟩ := lift_inv h
  rw [e] at h ⊢; clear e
  rw [emit_bind] at h ⊢
  dsimp only at h ⊢
  obtain ⟨q, h10, e⟩ := lift_inv h
  rw [e] at h ⊢; clear e
  obtain ⟨pos, h11, e⟩ := lift_inv h
  rw [e] at h ⊢; clear e
  rw [emit_bind] at h ⊢
  dsimp only at h ⊢
  injection h with h
  subst h
  simp only [replay_cons, Wr.apply, onLast_append, TField.put, hd]
  rfl

/-- A converter that stops before the file is created. -/
theorem shape_fail (e : Panic) (full : Run (Part K)) (h : full = .error e) : Log.Shape (lift (.error e)) full := by
  subst h
  refine ⟨⟨?_, ?_⟩, ?_, ?_⟩
  · intro h; cases h
  · rintro ⟨d, h⟩; cases h
  · intro d h; cases h
  · intro _ _; exact Or.inl rfl

theorem tloop_shape {α : Type} {stepLog : VtkState K → α → Log K (VtkState K)} {step : VtkState K → α → Run (VtkState K)}
    (hres : ∀ s x, (stepLog s x).res = step s x) (hno : ∀ s x, ∀ w ∈ (stepLog s x).writes, w.isLast = false)
    (heff : ∀ s s' x, (stepLog s x).res = .ok s' → ∀ d : Part K, d.tgroups = s.groups →
      replay (some d) (stepLog s x).writes = some { d with tgroups := s'.groups }) (l : List α) (attrs : VtkState K → Attrs K) :
    Log.Shape (startLog 1 >>= fun _ => loop stepLog VtkState.init l >>= fun s => attrsLog (attrs s))
      ((l.foldlM step VtkState.init >>= fun s => pure (⟨s.groups, attrs s⟩ : TOut K)) >>= fun o => pure o.part) := by
  have h := shape_of (ty := 1) (attrs := attrs) (content := fun s => { (Part.empty : Part K) with kind := some 1, tgroups := s.groups })
    (loop_res hres l VtkState.init) (loop_writes hno l VtkState.init) (fun s hs => by
      have hq := loop_effect (E := fun (s : VtkState K) (d : Part K) => { d with tgroups := s.groups }) (Q := fun s d => d.tgroups = s.groups)
        (fun s a s' hs d hd => ⟨heff s s' a hs d hd, rfl⟩) (fun _ _ _ => rfl) (fun s d hd => by rw [← hd]) l VtkState.init s
        ((loop_res hres l VtkState.init).trans hs) { (Part.empty : Part K) with kind := some 1 } rfl
      exact hq)
  have e : ((l.foldlM step VtkState.init >>= fun s => pure (⟨s.groups, attrs s⟩ : TOut K)) >>= fun o => pure o.part)
      = (l.foldlM step VtkState.init >>= fun s => pure (⟨s.groups, attrs s⟩ : TOut K).part) := by
    cases l.foldlM step VtkState.init <;> rfl
  rw [e]
  exact h

theorem vtk_shape (o : VtkOpts) (dt : F K) (files : List (VtkFile K)) :
    Log.Shape (vtkLog o dt files) (vtkConvert o dt files >>= fun o => pure o.part) := by
  unfold vtkLog vtkConvert
  by_cases h : files = []
  · rw [if_pos h, if_pos h]
    exact shape_fail _ _ rfl
  · rw [if_neg h, if_neg h]
    exact tloop_shape (vtkStepLog_res o dt) (vtkStepLog_writes o dt) (fun s s' x => vtkStepLog_effect o dt s s' x) files.zipIdx _

/-! ### One CSV file per timestep -/

theorem fileStepLog_res (cols : List ℕ) (times : List (F K)) (s : VtkState K) (x : List (List (F K)) × ℕ) :
    (fileStepLog cols times s x).res = fileStep cols times s x := by
  unfold fileStepLog fileStep
  rw [emit_bind]
  dsimp only
  cases h1 : Selector.at' times x.2 with
  | error e => rfl
  | ok t =>
    rw [lift_ok, run_bind_ok, emit_bind]
    dsimp only
    rw [lift_bind_res]
    rfl

theorem fileStepLog_writes (cols : List ℕ) (times : List (F K)) (s : VtkState K) (x : List (List (F K)) × ℕ) :
    ∀ w ∈ (fileStepLog cols times s x).writes, w.isLast = false := by
  unfold fileStepLog
  exact writes_emit rfl (writes_lift fun t => writes_emit rfl (writes_lift fun rows => writes_emit rfl (writes_emit rfl (writes_emit rfl (writes_emit rfl
    (writes_emit rfl (writes_emit rfl (writes_ret _))))))))

theorem fileStepLog_effect (cols : List ℕ) (times : List (F K)) (s s' : VtkState K) (x : List (List (F K)) × ℕ)
    (h : (fileStepLog cols times s x).res = .ok s') (d : Part K) (hd : d.tgroups = s.groups) :
    replay (some d) (fileStepLog cols times s x).writes = some { d with tgroups := s'.groups } := by
  unfold fileStepLog at h ⊢
  dsimp only at h ⊢
  rw [emit_bind] at h ⊢
  dsimp only at h ⊢
  obtain ⟨t, h1, e⟩ := lift_inv h
  rw [e] at h ⊢; clear e
  rw [emit_bind] at h ⊢
  dsimp only at h ⊢
  obtain ⟨rows, h2, e⟩ := lift_inv h
  rw [e] at h ⊢; clear e
  rw [emit_bind, emit_bind, emit_bind, emit_bind, emit_bind, emit_bind] at h ⊢
  dsimp only at h ⊢
  injection h with h
  subst h
  simp only [replay_cons, Wr.apply, onLast_append, TField.put, hd]
  rfl

theorem file_shape (cols : List ℕ) (times : List (F K)) (files : List (List (List (F K)))) :
    Log.Shape (fileLog cols times files) (fileConvert cols times files >>= fun o => pure o.part) := by
  unfold fileLog fileConvert
  by_cases h : ¬ (cols.length = 4 ∨ cols.length = 7)
  · rw [if_pos h, if_pos h]
    exact shape_fail _ _ rfl
  · rw [if_neg h, if_neg h]
    exact tloop_shape (fileStepLog_res cols times) (fileStepLog_writes cols times) (fun s s' x => fileStepLog_effect cols times s s' x) files.zipIdx _

/-! ### CSV files with trajectories -/

theorem csvGroupLog_res (rows : List (Row7 K)) (len : ℕ) (radius : F K) (ptype : Option (F K)) (pid : F K) :
    (csvGroupLog rows len radius ptype pid).res = .ok () := rfl

theorem csvGroupLog_writes (rows : List (Row7 K)) (len : ℕ) (radius : F K) (ptype : Option (F K)) (pid : F K) :
    ∀ w ∈ (csvGroupLog rows len radius ptype pid).writes, w.isLast = false := by
  unfold csvGroupLog
  exact writes_emit rfl (writes_emit rfl (writes_emit rfl (writes_emit rfl (writes_emit rfl (writes_emit rfl fun x hx => by
    fin_cases hx; rfl)))))

theorem csvGroupLog_effect (rows : List (Row7 K)) (len : ℕ) (radius : F K) (ptype : Option (F K)) (pid : F K) (d : Part K) (gs : List (PGroup K))
    (hd : d.pgroups = gs ++ [⟨none, none, none, none, none, none, none⟩]) :
    replay (some d) (csvGroupLog rows len radius ptype pid).writes = some { d with pgroups := gs ++ [csvGroup rows len radius ptype pid] } := by
  have e : (csvGroupLog rows len radius ptype pid).writes = [.putP (.time (rows.map Row7.t)), .putP (.ids (List.replicate len pid)),
    .putP (.radius (List.replicate len radius)), .putP .unread, .putP ((ptype.map fun y => PField.ptype (List.replicate len y)).getD .unread),
    .putP (.velocity (rows.map Row7.v)), .putP (.position (rows.map Row7.p))] := rfl
  rw [e]
  cases ptype with
  | none =>
    simp only [Option.map_none, Option.getD_none, replay_cons, Wr.apply, onLast_append, PField.put, hd]
    rfl
  | some y =>
    simp only [Option.map_some, Option.getD_some, replay_cons, Wr.apply, onLast_append, PField.put, hd]
    rfl

/-- The table of `csv_converter`. -/
def csvRows (lib : FitLib K) (o : CsvOpts K) (raw : List (List (F K))) : Run (List (Row7 K)) := do
  let rows ← pickColumns o.cols raw
  let rows ← csvSort rows
  csvTable lib o rows

theorem csv_shape (lib : FitLib K) (o : CsvOpts K) (raw : List (List (F K))) :
    Log.Shape (csvLog lib o raw) (csvConvert lib o raw >>= fun o => pure o.part) := by
  -- the body: table, group, datasets
  let res : Run (CsvState K × ℕ) := csvRows lib o raw >>= fun rows => csvLines [] CsvStats.init rows >>= fun s => pure (s, rows.length)
  let body2 : Log K (CsvState K × ℕ) := lift (csvRows lib o raw) >>= fun rows => emit .newP >>= fun _ => lift (csvLines [] CsvStats.init rows) >>= fun s =>
    csvGroupLog s.out rows.length o.radius (some 1) 1 >>= fun _ => pure (s, rows.length)
  have e1 : csvLog lib o raw = (startLog 2 >>= fun _ => body2 >>= fun s => attrsLog (csvAttrs s.1.stats s.1.out.length (s.1.out.map Row7.t))) := by
    unfold csvLog
    change _ = (startLog 2 >>= fun _ => (lift (csvRows lib o raw) >>= fun rows => emit .newP >>= fun _ => lift (csvLines [] CsvStats.init rows) >>= fun s =>
      csvGroupLog s.out rows.length o.radius (some 1) 1 >>= fun _ => pure (s, rows.length)) >>= fun s => attrsLog (csvAttrs s.1.stats s.1.out.length (s.1.out.map Row7.t)))
    unfold csvRows
    cases h1 : pickColumns o.cols raw with
    | error e => rfl
    | ok r1 =>
      rw [lift_ok, run_bind_ok]
      cases h2 : csvSort r1 with
      | error e => rfl
      | ok r2 =>
        rw [lift_ok, run_bind_ok]
        cases h3 : csvTable lib o r2 with
        | error e => rfl
        | ok r3 =>
          rw [lift_ok, lift_ok, emit_bind, emit_bind]
          cases h4 : csvLines [] CsvStats.init r3 with
          | error e => rfl
          | ok s => rfl
  have e2 : (csvConvert lib o raw >>= fun o => pure o.part) = (res >>= fun s => pure
      (⟨[csvGroup s.1.out s.2 o.radius (some 1) 1], csvAttrs s.1.stats s.1.out.length (s.1.out.map Row7.t)⟩ : POut K).part) := by
    change _ = ((csvRows lib o raw >>= fun rows => csvLines [] CsvStats.init rows >>= fun s => pure (s, rows.length)) >>= _)
    unfold csvConvert csvRows
    cases h1 : pickColumns o.cols raw with
    | error e => rfl
    | ok r1 =>
      rw [run_bind_ok, run_bind_ok]
      cases h2 : csvSort r1 with
      | error e => rfl
      | ok r2 =>
        rw [run_bind_ok, run_bind_ok]
        cases h3 : csvTable lib o r2 with
        | error e => rfl
        | ok r3 =>
          rw [run_bind_ok, run_bind_ok]
          cases h4 : csvLines [] CsvStats.init r3 with
          | error e => rfl
          | ok s => rfl
  rw [e1, e2]
  refine shape_of (ty := 2) (body := body2) (r := res) (attrs := fun s => csvAttrs s.1.stats s.1.out.length (s.1.out.map Row7.t))
    (content := fun s => { (Part.empty : Part K) with kind := some 2, pgroups := [csvGroup s.1.out s.2 o.radius (some 1) 1] }) ?_ ?_ ?_
  · change (lift (csvRows lib o raw) >>= _).res = _
    rw [lift_bind_res]
    congr 1
    funext rows
    rw [emit_bind]
    dsimp only
    rw [lift_bind_res]
    rfl
  · refine writes_lift fun rows => writes_emit rfl (writes_lift fun s => ?_)
    rw [bind_writes_ok (csvGroupLog_res ..)]
    intro w hw
    rcases List.mem_append.1 hw with hw | hw
    · exact csvGroupLog_writes _ _ _ _ _ w hw
    · cases hw
  · intro s hs
    obtain ⟨rows, hrows, hs⟩ := run_bind_inv hs
    obtain ⟨st, hst, hs⟩ := run_bind_inv hs
    injection hs with hs
    subst hs
    change replay _ (lift (csvRows lib o raw) >>= _).writes = _
    rw [hrows, lift_ok, emit_bind]
    dsimp only
    rw [hst, lift_ok, bind_writes_ok (csvGroupLog_res ..), replay_cons, replay_append,
      show (Wr.newP).apply (some { (Part.empty : Part K) with kind := some 2 })
        = some { (Part.empty : Part K) with kind := some 2, pgroups := [] ++ [⟨none, none, none, none, none, none, none⟩] } from rfl,
      csvGroupLog_effect _ _ _ _ _ _ [] rfl]
    rfl

theorem multiStepLog_res (radius : F K) (ptype : Option (F K)) (pid : ℕ → F K) (s : MultiState K) (x : List (Row7 K) × ℕ) :
    (multiStepLog radius ptype pid s x).res = multiStep radius ptype pid s x := by
  unfold multiStepLog multiStep
  rw [emit_bind]
  dsimp only
  rw [lift_bind_res]
  rfl

theorem multiStepLog_writes (radius : F K) (ptype : Option (F K)) (pid : ℕ → F K) (s : MultiState K) (x : List (Row7 K) × ℕ) :
    ∀ w ∈ (multiStepLog radius ptype pid s x).writes, w.isLast = false := by
  unfold multiStepLog
  refine writes_emit rfl (writes_lift fun r => ?_)
  rw [bind_writes_ok (csvGroupLog_res ..)]
  intro w hw
  rcases List.mem_append.1 hw with hw | hw
  · exact csvGroupLog_writes _ _ _ _ _ w hw
  · cases hw

theorem multiStepLog_effect (radius : F K) (ptype : Option (F K)) (pid : ℕ → F K) (s s' : MultiState K) (x : List (Row7 K) × ℕ)
    (h : (multiStepLog radius ptype pid s x).res = .ok s') (d : Part K) (hd : d.pgroups = s.groups) :
    replay (some d) (multiStepLog radius ptype pid s x).writes = some { d with pgroups := s'.groups } := by
  unfold multiStepLog at h ⊢
  rw [emit_bind] at h ⊢
  dsimp only at h ⊢
  obtain ⟨r, h1, e⟩ := lift_inv h
  rw [e] at h ⊢; clear e
  rw [bind_res, csvGroupLog_res, run_bind_ok] at h
  injection h with h
  subst h
  rw [bind_writes_ok (csvGroupLog_res ..), replay_cons, replay_append]
  rw [show (Wr.newP).apply (some d) = some { d with pgroups := d.pgroups ++ [⟨none, none, none, none, none, none, none⟩] } from rfl,
    csvGroupLog_effect _ _ _ _ _ _ s.groups (by rw [hd])]
  rfl

/-- Tables first, then one group for each. -/
theorem multi_shape (radius : F K) (ptype : Option (F K)) (pid : ℕ → F K) (tables : Run (List (List (Row7 K)))) :
    Log.Shape (startLog 2 >>= fun _ => (lift tables : Log K _) >>= multiLog radius ptype pid)
      ((tables >>= multiWrite radius ptype pid) >>= fun o => pure o.part) := by
  let body : Log K (MultiState K) := (lift tables : Log K _) >>= fun t =>
    loop (multiStepLog radius ptype pid) ⟨[], 0, CsvStats.init, List.replicate 100 0⟩ t.zipIdx
  let res : Run (MultiState K) := tables >>= fun t => t.zipIdx.foldlM (multiStep radius ptype pid) ⟨[], 0, CsvStats.init, List.replicate 100 0⟩
  have e1 : (startLog 2 >>= fun _ => (lift tables : Log K _) >>= multiLog radius ptype pid)
      = (startLog 2 >>= fun _ => body >>= fun s => attrsLog (csvAttrs s.stats s.steps s.times)) := by
    change _ = (startLog 2 >>= fun _ => ((lift tables : Log K _) >>= fun t =>
      loop (multiStepLog radius ptype pid) ⟨[], 0, CsvStats.init, List.replicate 100 0⟩ t.zipIdx) >>= _)
    cases tables with
    | error e => rfl
    | ok t => rfl
  have e2 : ((tables >>= multiWrite radius ptype pid) >>= fun o => pure o.part) = (res >>= fun s => pure
      (⟨s.groups, csvAttrs s.stats s.steps s.times⟩ : POut K).part) := by
    change _ = ((tables >>= fun t => t.zipIdx.foldlM (multiStep radius ptype pid) ⟨[], 0, CsvStats.init, List.replicate 100 0⟩) >>= _)
    unfold multiWrite
    cases tables with
    | error e => rfl
    | ok t =>
      rw [run_bind_ok, run_bind_ok]
      cases t.zipIdx.foldlM (multiStep radius ptype pid) ⟨[], 0, CsvStats.init, List.replicate 100 0⟩ <;> rfl
  rw [e1, e2]
  refine shape_of (ty := 2) (body := body) (r := res) (attrs := fun s => csvAttrs s.stats s.steps s.times)
    (content := fun s => { (Part.empty : Part K) with kind := some 2, pgroups := s.groups }) ?_ ?_ ?_
  · change ((lift tables : Log K _) >>= _).res = _
    rw [lift_bind_res]
    congr 1
    funext t
    exact loop_res (multiStepLog_res radius ptype pid) t.zipIdx _
  · exact writes_lift fun t => loop_writes (multiStepLog_writes radius ptype pid) t.zipIdx _
  · intro s hs
    obtain ⟨t, ht, hs⟩ := run_bind_inv hs
    change replay _ ((lift tables : Log K _) >>= _).writes = _
    rw [ht, lift_ok]
    exact loop_effect (E := fun (s : MultiState K) (d : Part K) => { d with pgroups := s.groups }) (Q := fun s d => d.pgroups = s.groups)
        (fun s a s' hs d hd => ⟨multiStepLog_effect radius ptype pid s s' a hs d hd, rfl⟩) (fun _ _ _ => rfl) (fun s d hd => by rw [← hd]) t.zipIdx _ s
        ((loop_res (multiStepLog_res radius ptype pid) t.zipIdx _).trans hs) { (Part.empty : Part K) with kind := some 2 } rfl

theorem chain_shape (lib : FitLib K) (o : CsvOpts K) (raw : List (List (F K))) :
    Log.Shape (chainLog lib o raw) (chainConvert lib o raw >>= fun o => pure o.part) := by
  have h := multi_shape o.radius none (fun _ => (1 : F K)) (pickColumns o.cols raw >>= chainTables lib o)
  have e1 : chainLog lib o raw = (startLog 2 >>= fun _ => (lift (pickColumns o.cols raw >>= chainTables lib o) : Log K _) >>=
      multiLog o.radius none (fun _ => 1)) := by
    unfold chainLog
    cases pickColumns o.cols raw with
    | error e => rfl
    | ok r => rfl
  have e2 : chainConvert lib o raw = ((pickColumns o.cols raw >>= chainTables lib o) >>= multiWrite o.radius none (fun _ => 1)) := by
    unfold chainConvert
    cases pickColumns o.cols raw with
    | error e => rfl
    | ok r => rfl
  rw [e1, e2]
  exact h

theorem id_shape (lib : FitLib K) (o : CsvOpts K) (raw : List (List (F K))) :
    Log.Shape (idLog lib o raw) (idConvert lib o raw >>= fun o => pure o.part) := by
  unfold idLog idConvert
  by_cases hc : ¬ (o.cols.length = 5 ∨ o.cols.length = 8)
  · rw [if_pos hc, if_pos hc]
    exact shape_fail _ _ rfl
  rw [if_neg hc, if_neg hc]
  let T : Run (List (List (Row7 K))) := do
    let rows ← raw.foldlM (fun acc r => do pure (acc ++ [← pickIdRow o.cols r])) []
    let t ← sortById rows
    t.1.foldlM (fun acc l => do pure (acc ++ [← idTable lib o t.2.1 t.2.2 l])) []
  have h := multi_shape o.radius (some 0) (fun i => F.ofNat i) T
  convert h using 1
  · change _ = (startLog 2 >>= fun _ => (lift (do
      let rows ← raw.foldlM (fun acc r => do pure (acc ++ [← pickIdRow o.cols r])) []
      let t ← sortById rows
      t.1.foldlM (fun acc l => do pure (acc ++ [← idTable lib o t.2.1 t.2.2 l])) []) : Log K _) >>= _)
    cases raw.foldlM (fun acc r => do pure (acc ++ [← pickIdRow o.cols r])) [] with
    | error e => rfl
    | ok rows =>
      rw [lift_ok, run_bind_ok]
      cases sortById rows with
      | error e => rfl
      | ok t => rfl
  · change _ = ((((do
      let rows ← raw.foldlM (fun acc r => do pure (acc ++ [← pickIdRow o.cols r])) []
      let t ← sortById rows
      t.1.foldlM (fun acc l => do pure (acc ++ [← idTable lib o t.2.1 t.2.2 l])) []) : Run (List (List (Row7 K)))) >>= _) >>= _)
    cases raw.foldlM (fun acc r => do pure (acc ++ [← pickIdRow o.cols r])) [] with
    | error e => rfl
    | ok rows =>
      rw [run_bind_ok, run_bind_ok]
      cases sortById rows with
      | error e => rfl
      | ok t => rfl

/-! ### C94 -/

/-- What a user can find under the output name when the conversion `m`, which would have produced `full`, stops after some of its writes. -/
structure CrashSafe (m : Log K Unit) (full : Run (Part K)) : Prop where
  /-- the conversion returns exactly when there is a complete result -/
  returns : m.res = .ok () ↔ ∃ d, full = .ok d
  /-- stopped before its first write it has not touched the file that was there; stopped anywhere else before the end, by a panic of its own or from outside,
  it leaves a file that `Data` refuses, whatever was there before; after the last write the complete result is there -/
  crash : ∀ (old : Option (Part K)) (W : List (Wr K)), W <+: m.writes →
    (W = [] ∧ replay old W = old) ∨ (W = m.writes ∧ ∃ d, full = .ok d ∧ replay old W = some d) ∨ ∀ p, ∃ e, loadPart p (replay old W) = .error e
  /-- a conversion that panicked leaves the old file or one that is refused -/
  failed : ∀ e, m.res = .error e → ∀ old : Option (Part K), replay old m.writes = old ∨ ∀ p, ∃ e', loadPart p (replay old m.writes) = .error e'
  /-- a conversion that returned leaves the complete result -/
  done : m.res = .ok () → ∀ old : Option (Part K), ∃ d, full = .ok d ∧ replay old m.writes = some d

theorem crashSafe_of {m : Log K Unit} {full : Run (Part K)} (h : m.Shape full) : CrashSafe m full where
  returns := h.res
  crash := fun old W hW => shape_crash h old hW
  failed := by
    intro e he old
    rcases shape_crash h old (List.prefix_refl m.writes) with ⟨_, h1⟩ | ⟨_, d, hd, _⟩ | h1
    · exact Or.inl h1
    · rw [h.res.2 ⟨d, hd⟩] at he; cases he
    · exact Or.inr h1
  done := by
    intro hm old
    obtain ⟨d, hd⟩ := h.res.1 hm
    obtain ⟨_, _, _, _, hr⟩ := h.done d hd
    exact ⟨d, hd, hr old⟩

/-- **C94** (VTK). -/
theorem C94_vtk (o : VtkOpts) (dt : F K) (files : List (VtkFile K)) :
    CrashSafe (vtkLog o dt files) (vtkConvert o dt files >>= fun o => pure o.part) := crashSafe_of (vtk_shape o dt files)
/-- **C94** (one trajectory). -/
theorem C94_csv (lib : FitLib K) (o : CsvOpts K) (raw : List (List (F K))) :
    CrashSafe (csvLog lib o raw) (csvConvert lib o raw >>= fun o => pure o.part) := crashSafe_of (csv_shape lib o raw)
/-- **C94** (`chain`). -/
theorem C94_chain (lib : FitLib K) (o : CsvOpts K) (raw : List (List (F K))) :
    CrashSafe (chainLog lib o raw) (chainConvert lib o raw >>= fun o => pure o.part) := crashSafe_of (chain_shape lib o raw)
/-- **C94** (`id_line`). -/
theorem C94_id (lib : FitLib K) (o : CsvOpts K) (raw : List (List (F K))) :
    CrashSafe (idLog lib o raw) (idConvert lib o raw >>= fun o => pure o.part) := crashSafe_of (id_shape lib o raw)
/-- **C94** (one file per timestep). -/
theorem C94_files (cols : List ℕ) (times : List (F K)) (files : List (List (List (F K)))) :
    CrashSafe (fileLog cols times files) (fileConvert cols times files >>= fun o => pure o.part) := crashSafe_of (file_shape cols times files)

/-- **C94** The complete result is read as the conversions' other theorems read it (time-based). -/
theorem C94_load_time (p : Profile) (o : TOut K) (h : ∃ b, o.file.openBuf p Timestep.default = .ok b) :
    loadPart p (some o.part) = o.onDisk.load p := by
  obtain ⟨b, hb⟩ := h
  change ((TOut.file ⟨o.groups, _⟩).openBuf p Timestep.default >>= fun _ => (TOut.onDisk ⟨o.groups, _⟩).load p) = _
  change (o.file.openBuf p Timestep.default >>= fun _ => o.onDisk.load p) = _
  rw [hb, run_bind_ok]

/-- **C94** The complete result is read as the conversions' other theorems read it (particle-based). -/
theorem C94_load_particle (p : Profile) (o : POut K) (h : ∃ b, o.file.openBuf p Timestep.default = .ok b) :
    loadPart p (some o.part) = (o.onDisk p).load p := by
  obtain ⟨b, hb⟩ := h
  change (o.file.openBuf p Timestep.default >>= fun _ => (o.onDisk p).load p) = _
  rw [hb, run_bind_ok]

end Up4
